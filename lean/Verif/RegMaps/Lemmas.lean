import Verif.RegMaps.Spec
import Verif.TimeSeries.Piecewise
import Verif.Time.Adjust
import Mathlib.Algebra.BigOperators.Fin

/-!
# Lemmas about the regression maps
-/
namespace Verif.RegMaps
open Verif.TimeSeries Finset

/-! ## The loop over the cycles -/

/-- the tides of the code and of the specification -/
theorem tides_eq : tides = Tide.all.map fun t => (t.name, t.days) := by decide +kernel

theorem near_season : near (1 / 2) = [] ∧ near 1 = [] := by
  constructor <;> decide +kernel

/-- what the tides near a cycle add to a plan -/
theorem tideFold (i : ℕ) (c : ℚ) (ts : List Tide) (p : Plan) :
    (ts.map fun t => (t.name, t.days)).foldl (tideStep i c) p =
      let ns := ts.filter fun t => |c - t.days / 365.25| ≤ 1 / 10 ^ 8 + 1 / 10 ^ 5 * |t.days / 365.25|
      { coef := p.coef ++ ((ns.flatMap fun t => [Wave.alias t false, .alias t true]).flatMap fun w =>
          [Comp.sine w, .cosine w]).map Comp.label
        amp := p.amp ++ (ns.flatMap fun t => [Wave.alias t false, .alias t true]).map Wave.label
        unit := p.unit ++ List.replicate (4 * ns.length) []
        periods := p.periods ++ ns.map Tide.days
        removed := p.removed ++ List.replicate ns.length i } := by
  induction ts generalizing p with
  | nil => simp
  | cons t r ih =>
    rw [List.map_cons, List.foldl_cons, ih]
    by_cases h : |c - t.days / 365.25| ≤ 1 / 10 ^ 8 + 1 / 10 ^ 5 * |t.days / 365.25|
    · have e : tideStep i c p (t.name, t.days) =
          { coef := p.coef ++ [t.name ++ ['S', 'G', 'R', 'C'], t.name ++ ['C', 'G', 'R', 'C']] ++
              [t.name ++ ['S', 'G', 'F', 'O'], t.name ++ ['C', 'G', 'F', 'O']]
            amp := p.amp ++ [t.name ++ ['G', 'R', 'C']] ++ [t.name ++ ['G', 'F', 'O']]
            unit := p.unit ++ [[], []] ++ [[], []]
            periods := p.periods ++ [t.days]
            removed := p.removed ++ [i] } := by
        unfold tideStep
        rw [if_pos (by unfold isclose; simpa using h)]
      rw [e, List.filter_cons_of_pos (by simpa using h)]
      simp only [List.flatMap_cons, List.flatMap_append, List.map_append, List.length_cons, List.map_cons,
        List.append_assoc, Plan.mk.injEq]
      refine ⟨rfl, rfl, ?_, rfl, ?_⟩
      · rw [show 4 * ((List.filter (fun t => decide (|c - t.days / 365.25| ≤ 1 / 10 ^ 8 + 1 / 10 ^ 5 * |t.days / 365.25|)) r).length + 1) =
          4 * (List.filter (fun t => decide (|c - t.days / 365.25| ≤ 1 / 10 ^ 8 + 1 / 10 ^ 5 * |t.days / 365.25|)) r).length + 1 + 1 + 1 + 1 by ring]
        simp [List.replicate_succ]
      · simp [List.replicate_succ]
    · have e : tideStep i c p (t.name, t.days) = p := by
        unfold tideStep
        rw [if_neg (by unfold isclose; simpa using h)]
      rw [e, List.filter_cons_of_neg (by simpa using h)]

/-- waves with a label of one cycle -/
def labelledOf (c : ℚ) : List Wave := if c = 1 / 2 ∨ c = 1 then [.cycle c] else aliases c

theorem planStep_eq (p : Plan) (c : ℚ) (i : ℕ) :
    planStep p (c, i) =
      { coef := p.coef ++ ((labelledOf c).flatMap fun w => [Comp.sine w, .cosine w]).map Comp.label
        amp := p.amp ++ (labelledOf c).map Wave.label
        unit := p.unit ++ List.replicate (2 * (labelledOf c).length) []
        periods := p.periods ++ (near c).map Tide.days
        removed := p.removed ++ List.replicate (near c).length i } := by
  unfold planStep
  rw [tides_eq, tideFold]
  show Plan.mk _ _ _ _ _ = _
  change Plan.mk ((seasonStep c p).coef ++ ((aliases c).flatMap fun w => [Comp.sine w, .cosine w]).map Comp.label)
    ((seasonStep c p).amp ++ (aliases c).map Wave.label)
    ((seasonStep c p).unit ++ List.replicate (4 * (near c).length) [])
    ((seasonStep c p).periods ++ (near c).map Tide.days) ((seasonStep c p).removed ++ List.replicate (near c).length i) = _
  by_cases h1 : c = 1 / 2
  · subst h1
    have a0 : aliases (1 / 2) = [] := by unfold aliases; rw [near_season.1]; rfl
    have l0 : labelledOf (1 / 2) = [.cycle (1 / 2)] := by unfold labelledOf; rw [if_pos (Or.inl rfl)]
    have s0 : seasonStep (1 / 2) p = ⟨p.coef ++ [['S', 'S'], ['S', 'C']], p.amp ++ [['S', 'E', 'M', 'I']],
        p.unit ++ [[], []], p.periods, p.removed⟩ := by unfold seasonStep; rw [if_pos rfl]
    rw [a0, l0, s0, near_season.1]
    simp [Comp.label, Wave.label]
  · by_cases h2 : c = 1
    · subst h2
      have a0 : aliases 1 = [] := by unfold aliases; rw [near_season.2]; rfl
      have l0 : labelledOf 1 = [.cycle 1] := by unfold labelledOf; rw [if_pos (Or.inr rfl)]
      have s0 : seasonStep 1 p = ⟨p.coef ++ [['A', 'S'], ['A', 'C']], p.amp ++ [['A', 'N', 'N']],
          p.unit ++ [[], []], p.periods, p.removed⟩ := by unfold seasonStep; rw [if_neg h1, if_pos rfl]
      rw [a0, l0, s0, near_season.2]
      have hne : ¬ ((1 : ℚ) = 1 / 2) := by norm_num
      simp [Comp.label, Wave.label]
    · have l0 : labelledOf c = aliases c := by unfold labelledOf; rw [if_neg (by tauto)]
      have s0 : seasonStep c p = p := by unfold seasonStep; rw [if_neg h1, if_neg h2]
      have len : (aliases c).length = 2 * (near c).length := by
        unfold aliases; rw [List.length_flatMap]; simp; ring
      rw [l0, s0, len]
      congr 2
      ring_nf

/-- the plan after all cycles -/
theorem plan_eq (p : Plan) (cycles : List ℚ) :
    (plan p cycles).coef = p.coef ++ ((labelled cycles).flatMap fun w => [Comp.sine w, .cosine w]).map Comp.label ∧
    (plan p cycles).amp = p.amp ++ (labelled cycles).map Wave.label ∧
    (plan p cycles).unit = p.unit ++ List.replicate (2 * (labelled cycles).length) [] ∧
    (plan p cycles).periods = p.periods ++ (cycles.flatMap near).map Tide.days ∧
    ∀ i, i ∈ (plan p cycles).removed ↔ i ∈ p.removed ∨ ∃ c, (c, i) ∈ cycles.zipIdx ∧ near c ≠ [] := by
  unfold plan
  suffices h : ∀ (n : ℕ) (p : Plan),
      let q := (cycles.zipIdx n).foldl planStep p
      q.coef = p.coef ++ ((labelled cycles).flatMap fun w => [Comp.sine w, .cosine w]).map Comp.label ∧
      q.amp = p.amp ++ (labelled cycles).map Wave.label ∧
      q.unit = p.unit ++ List.replicate (2 * (labelled cycles).length) [] ∧
      q.periods = p.periods ++ (cycles.flatMap near).map Tide.days ∧
      ∀ i, i ∈ q.removed ↔ i ∈ p.removed ∨ ∃ c, (c, i) ∈ cycles.zipIdx n ∧ near c ≠ [] from h 0 p
  induction cycles with
  | nil => intro n p; simp [labelled]
  | cons c r ih =>
    intro n p
    have hl : labelled (c :: r) = labelledOf c ++ labelled r := rfl
    simp only [List.zipIdx_cons, List.foldl_cons]
    obtain ⟨h1, h2, h3, h4, h5⟩ := ih (n + 1) (planStep p (c, n))
    rw [planStep_eq] at h1 h2 h3 h4 h5
    simp only at h1 h2 h3 h4 h5
    refine ⟨?_, ?_, ?_, ?_, ?_⟩
    · rw [planStep_eq, h1, hl]; simp
    · rw [planStep_eq, h2, hl]; simp
    · rw [planStep_eq, h3, hl, List.append_assoc, List.replicate_append_replicate]; simp [Nat.mul_add]
    · rw [planStep_eq, h4]; simp
    · intro i
      rw [planStep_eq, h5 i]
      simp only [List.mem_append, List.mem_replicate, List.mem_cons, Prod.mk.injEq]
      constructor
      · rintro ((h | ⟨h, rfl⟩) | ⟨d, hd, hn⟩)
        · exact .inl h
        · exact .inr ⟨c, .inl ⟨rfl, rfl⟩, fun hh => h (by rw [hh]; rfl)⟩
        · exact .inr ⟨d, .inr hd, hn⟩
      · rintro (h | ⟨d, (⟨rfl, rfl⟩ | hd), hn⟩)
        · exact .inl (.inl h)
        · exact .inl (.inr ⟨fun hh => hn (List.length_eq_zero_iff.1 hh), rfl⟩)
        · exact .inr ⟨d, hd, hn⟩

/-- the cycles that stay in the fit as cycles -/
theorem remaining_eq (p : Plan) (cycles : List ℚ) (hp : p.removed = []) :
    remaining (plan p cycles) cycles = cycles.filter fun c => near c = [] := by
  unfold remaining
  have h5 := (plan_eq p cycles).2.2.2.2
  have : (cycles.zipIdx.filter fun ci => ci.2 ∉ (plan p cycles).removed) =
      cycles.zipIdx.filter fun ci => near ci.1 = [] := by
    refine List.filter_congr ?_
    rintro ⟨c, i⟩ hc
    simp only [decide_eq_decide]
    rw [h5 i, hp]
    constructor
    · intro h
      by_contra hn
      exact h (.inr ⟨c, hc, hn⟩)
    · rintro h (h' | ⟨d, hd, hn⟩)
      · simp at h'
      · have e1 := List.mk_mem_zipIdx_iff_getElem?.1 hc
        have e2 := List.mk_mem_zipIdx_iff_getElem?.1 hd
        rw [e1] at e2
        cases e2
        exact hn h
  rw [this]
  have h2 : ((cycles.zipIdx.map (·.1)).filter fun c => decide (near c = [])) =
      (cycles.zipIdx.filter fun ci => near ci.1 = []).map (·.1) := by
    rw [List.filter_map]; rfl
  rw [← h2]
  congr 1
  exact List.zipIdx_map_fst 0 cycles

end Verif.RegMaps
