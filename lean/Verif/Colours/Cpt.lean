import Verif.Colours.Maps
/-!
# C115: colour palette tables and the widget
-/
namespace Verif.Colours

/-- the parts of a table: the lines of colours, the texts of the colour model, the lines of flags -/
def segments (ls : List Line) : List ((ℚ × Triple) × (ℚ × Triple)) := ls.filterMap fun
  | .other [x1, r1, g1, b1, x2, r2, g2, b2] => some ((x1, r1, g1, b1), (x2, r2, g2, b2))
  | _ => none
def modelTexts (ls : List Line) : List (List Char) := ls.filterMap fun
  | .model n => some n
  | _ => none
def flagLines (ls : List Line) : List (Char × List ℚ) := ls.filterMap fun
  | .flag c xs => some (c, xs)
  | _ => none
/-- the colour model of a table: that of its last line with a model, RGB without one -/
def modelOf (ls : List Line) : List Char := ((modelTexts ls).getLast?).getD "RGB".toList
/-- every line that is no model, flag or comment has eight numbers -/
def WellFormed (ls : List Line) : Prop := ∀ xs, Line.other xs ∈ ls → xs.length = 8

theorem fold_step (ls : List Line) (s t : State) (h : ls.foldlM step s = .ok t) :
    t.model = ((modelTexts ls).getLast?).getD s.model ∧ t.flags = s.flags ++ flagLines ls ∧
    t.entries = s.entries ++ (segments ls).map Prod.fst ∧
    t.last = (((segments ls).getLast?).map Prod.snd).or s.last := by
  induction ls generalizing s with
  | nil => cases h; simp [modelTexts, flagLines, segments]
  | cons l ls ih =>
    rw [List.foldlM_cons] at h
    cases hs : step s l with
    | error e => rw [hs] at h; cases h
    | ok u =>
      rw [hs] at h
      obtain ⟨h1, h2, h3, h4⟩ := ih u h
      cases l with
      | model n =>
        cases hs
        refine ⟨?_, h2, h3, h4⟩
        rw [h1]
        simp only [modelTexts, List.filterMap_cons, List.getLast?_cons, Option.getD_some]
      | flag c xs =>
        cases hs
        refine ⟨h1, ?_, h3, h4⟩
        rw [h2]; simp [flagLines]
      | comment => cases hs; exact ⟨h1, h2, h3, h4⟩
      | other xs =>
        unfold step at hs
        split at hs
        · cases ‹Line.other _ = _›
        · cases ‹Line.other _ = _›
        · cases ‹Line.other _ = _›
        · rename_i x1 r1 g1 b1 x2 r2 g2 b2 he
          cases he
          cases hs
          refine ⟨h1, h2, ?_, ?_⟩
          · rw [h3]; simp [segments]
          · rw [h4]
            simp only [segments, List.filterMap_cons, List.getLast?_cons, Option.map_some, Option.or_some]
            cases (List.filterMap _ ls).getLast? <;> rfl
        · cases hs

theorem fold_ok (ls : List Line) (h : WellFormed ls) (s : State) : ∃ t, ls.foldlM step s = .ok t := by
  induction ls generalizing s with
  | nil => exact ⟨s, rfl⟩
  | cons l ls ih =>
    have hw : WellFormed ls := fun xs hx => h xs (List.mem_cons_of_mem _ hx)
    have : ∃ u, step s l = .ok u := by
      cases l with
      | model n => exact ⟨_, rfl⟩
      | flag c xs => exact ⟨_, rfl⟩
      | comment => exact ⟨_, rfl⟩
      | other xs =>
        have hl := h xs (by simp)
        match xs, hl with
        | [x1, r1, g1, b1, x2, r2, g2, b2], _ => exact ⟨_, rfl⟩
    obtain ⟨u, hu⟩ := this
    rw [List.foldlM_cons, hu]
    exact ih hw u

theorem fold_error (ls : List Line) (h : ¬ WellFormed ls) (s : State) : ls.foldlM step s = .error .value := by
  induction ls generalizing s with
  | nil => exact absurd (fun xs hx => by simp at hx) h
  | cons l ls ih =>
    rw [List.foldlM_cons]
    cases hs : step s l with
    | error e =>
      have : e = .value := by
        unfold step at hs
        split at hs <;> cases hs
        rfl
      rw [this]; rfl
    | ok u =>
      refine ih (fun hw => h fun xs hx => ?_) u
      rcases List.mem_cons.1 hx with e | hx
      · subst e
        unfold step at hs
        split at hs
        · cases ‹Line.other _ = _›
        · cases ‹Line.other _ = _›
        · cases ‹Line.other _ = _›
        · cases ‹Line.other _ = _›; rfl
        · cases hs
      · exact hw xs hx

/-- the locations and colours of a table: the start of every line and the end of the last one -/
def points (ls : List Line) (e : ℚ × Triple) : List (ℚ × Triple) := (segments ls).map Prod.fst ++ [e]

/-- C115: a table in RGB or HSV whose lines are well formed, with locations that do not end where they begin: the map has a node for
the start of every line and for the end of the last one, at its location relative to the first and last, with its colour; the
colours below, above and for missing values are those of the last lines with `B`, `F` and `N`. -/
theorem cpt_spec (ls : List Line) (hw : WellFormed ls) (seg : (ℚ × Triple) × (ℚ × Triple)) (hl : (segments ls).getLast? = some seg)
    (x0 : ℚ) (hx : ((segments ls).map fun p => p.1.1).head? = some x0) (hne : seg.2.1 ≠ x0)
    (hm : modelOf ls = "HSV".toList ∨ modelOf ls = "RGB".toList) (u o n : Option Triple)
    (hu : extreme (modelOf ls) (flagLines ls) 'B' = .ok u) (ho : extreme (modelOf ls) (flagLines ls) 'F' = .ok o)
    (hn : extreme (modelOf ls) (flagLines ls) 'N' = .ok n) :
    fromCpt true ls = .ok ⟨(points ls seg.2).map fun p => (some ((p.1 - x0) / (seg.2.1 - x0)), convert (modelOf ls) p.2), u, o, n⟩ ∧
    fromCpt false ls = .ok ⟨(points ls seg.2).map fun p => (some ((p.1 - x0) / (seg.2.1 - x0)), convert (modelOf ls) p.2), none, none, none⟩ := by
  obtain ⟨t, ht⟩ := fold_ok ls hw {}
  obtain ⟨t1, t2, t3, t4⟩ := fold_step ls {} t ht
  have e1 : t.model = modelOf ls := t1
  have e2 : t.flags = flagLines ls := by rw [t2]; simp
  have e3 : t.entries = (segments ls).map Prod.fst := by rw [t3]; simp
  have e4 : t.last = some seg.2 := by rw [t4, hl]; rfl
  have hhead : (((segments ls).map Prod.fst ++ [seg.2]).headD seg.2).1 = x0 := by
    cases hseg : segments ls with
    | nil => rw [hseg] at hl; cases hl
    | cons a l => rw [hseg] at hx; simpa using hx
  have hz : ¬ (seg.2.1 - x0 = 0) := by rw [sub_eq_zero]; exact hne
  unfold fromCpt
  rw [ht]
  simp only [e4, e3, hhead, e1, hm, true_and, if_neg hz, e2, hu, ho, hn, if_true, Bool.false_eq_true, if_false]
  exact ⟨rfl, rfl⟩

/-- C115: where the map begins and ends, and that locations in order stay in order. -/
theorem cpt_locations (a b x y : ℚ) (h : a < b) : (a - a) / (b - a) = 0 ∧ (b - a) / (b - a) = 1 ∧
    (x ≤ y → (x - a) / (b - a) ≤ (y - a) / (b - a)) ∧ (a ≤ x → x ≤ b → 0 ≤ (x - a) / (b - a) ∧ (x - a) / (b - a) ≤ 1) := by
  have hp : 0 < b - a := by linarith
  refine ⟨by simp, div_self hp.ne', fun hxy => ?_, fun h1 h2 => ⟨div_nonneg (by linarith) hp.le, ?_⟩⟩
  · exact div_le_div_of_nonneg_right (by linarith) hp.le
  · rw [div_le_one hp]; linarith

/-- C115: colours: components up to 255 are divided by 255; hues in degrees, saturation and value give the colour of the wheel. -/
theorem convert_spec (c : Triple) : convert "RGB".toList c = (c.1 / 255, c.2.1 / 255, c.2.2 / 255) ∧
    (0 ≤ c.1 → IsHsv (c.1 / 360) c.2.1 c.2.2 (convert "HSV".toList c)) := by
  refine ⟨rfl, fun h => ?_⟩
  unfold convert
  rw [if_pos rfl]
  exact hsv_spec _ _ _ (by positivity)

/-- C115: the colour of a flag: that of the last line with its letter, of three numbers; without a line there is none; another number
of numbers is a `ValueError`. -/
theorem extreme_spec (model : List Char) (fs gs : List (Char × List ℚ)) (c : Char) (r g b : ℚ) (hgs : ∀ p ∈ gs, p.1 ≠ c) :
    extreme model (fs ++ (c, [r, g, b]) :: gs) c = .ok (some (convert model (r, g, b))) ∧ extreme model gs c = .ok none ∧
    (∀ xs : List ℚ, xs.length ≠ 3 → extreme model (fs ++ (c, xs) :: gs) c = .error .value) := by
  have hg : gs.filter (fun p => p.1 = c) = [] := by
    rw [List.filter_eq_nil_iff]; intro p hp; simpa using hgs p hp
  have key : ∀ xs, flagOf (fs ++ (c, xs) :: gs) c = some xs := by
    intro xs
    unfold flagOf
    rw [List.filter_append, List.filter_cons, if_pos (by simp), hg]
    simp
  refine ⟨?_, ?_, fun xs hx => ?_⟩
  · unfold extreme; rw [key]
  · unfold extreme flagOf; rw [hg]; rfl
  · unfold extreme; rw [key]
    match xs, hx with
    | [], _ => rfl
    | [_], _ => rfl
    | [_, _], _ => rfl
    | [_, _, _], h => exact absurd rfl h
    | _ :: _ :: _ :: _ :: _, _ => rfl

/-- C115 (negative): flags are written in small letters to no effect, although such lines are taken for flags. -/
theorem small_flags (model : List Char) (fs : List (Char × List ℚ)) (h : ∀ p ∈ fs, p.1 = 'b' ∨ p.1 = 'f' ∨ p.1 = 'n') :
    extreme model fs 'B' = .ok none ∧ extreme model fs 'F' = .ok none ∧ extreme model fs 'N' = .ok none := by
  have key : ∀ c : Char, c = 'B' ∨ c = 'F' ∨ c = 'N' → extreme model fs c = .ok none := by
    intro c hc
    refine (extreme_spec model [] fs c 0 0 0 fun p hp => ?_).2.1
    rcases h p hp with e | e | e <;> rcases hc with e' | e' | e' <;> rw [e, e'] <;> decide
  exact ⟨key _ (by simp), key _ (by simp), key _ (by simp)⟩

/-- C115 (negative): the colour model may be written in small letters, but is then not understood: the map has no locations and the
numbers of the file as colours, without a message. -/
theorem small_model (ls : List Line) (hw : WellFormed ls) (seg : (ℚ × Triple) × (ℚ × Triple)) (hl : (segments ls).getLast? = some seg)
    (hm : modelOf ls = "hsv".toList ∨ modelOf ls = "rgb".toList) (hf : flagLines ls = []) :
    fromCpt true ls = .ok ⟨(points ls seg.2).map fun p => (none, p.2), none, none, none⟩ := by
  obtain ⟨t, ht⟩ := fold_ok ls hw {}
  obtain ⟨t1, t2, t3, t4⟩ := fold_step ls {} t ht
  have e1 : t.model = modelOf ls := t1
  have e2 : t.flags = [] := by rw [t2, hf]; rfl
  have e3 : t.entries = (segments ls).map Prod.fst := by rw [t3]; simp
  have e4 : t.last = some seg.2 := by rw [t4, hl]; rfl
  have hk1 : modelOf ls ≠ "HSV".toList := by rcases hm with h | h <;> rw [h] <;> decide
  have hk2 : modelOf ls ≠ "RGB".toList := by rcases hm with h | h <;> rw [h] <;> decide
  have hx : ∀ c, extreme (modelOf ls) [] c = .ok none := fun c => rfl
  unfold fromCpt
  rw [ht]
  simp only [e4, e1, hk1, hk2, or_self, false_and, if_false, e2, hx, if_true, e3]
  congr 2
  refine List.map_congr_left fun p _ => ?_
  unfold convert
  rw [if_neg hk1, if_neg hk2]

/-- C115: tables that fail: a line with another number of numbers is a `ValueError`, a table without lines of colours an
`UnboundLocalError`, equal first and last locations a `ZeroDivisionError`. -/
theorem cpt_errors (b : Bool) (ls : List Line) : (¬ WellFormed ls → fromCpt b ls = .error .value) ∧
    (WellFormed ls → segments ls = [] → fromCpt b ls = .error .unbound) ∧
    (WellFormed ls → ∀ seg x0, (segments ls).getLast? = some seg → ((segments ls).map fun p => p.1.1).head? = some x0 → seg.2.1 = x0 →
      modelOf ls = "HSV".toList ∨ modelOf ls = "RGB".toList → fromCpt b ls = .error .zeroDivision) := by
  refine ⟨fun h => ?_, fun h hs => ?_, fun h seg x0 hl hx he hm => ?_⟩
  · unfold fromCpt; rw [fold_error ls h]
  · obtain ⟨t, ht⟩ := fold_ok ls h {}
    obtain ⟨-, -, -, t4⟩ := fold_step ls {} t ht
    unfold fromCpt; rw [ht]
    simp only [t4, hs]
    rfl
  · obtain ⟨t, ht⟩ := fold_ok ls h {}
    obtain ⟨t1, t2, t3, t4⟩ := fold_step ls {} t ht
    have e1 : t.model = modelOf ls := t1
    have e3 : t.entries = (segments ls).map Prod.fst := by rw [t3]; simp
    have e4 : t.last = some seg.2 := by rw [t4, hl]; rfl
    have hhead : ((t.entries ++ [seg.2]).headD seg.2).1 = x0 := by
      rw [e3]
      cases hseg : segments ls with
      | nil => rw [hseg] at hl; cases hl
      | cons a l => rw [hseg] at hx; simpa using hx
    unfold fromCpt; rw [ht]
    simp only [e4, hhead, e1, hm, he, sub_self, and_self, if_true]

/-- C115 (negative): the right colour of a line that differs from the left colour of the next is lost: two tables that differ in the
end of a line other than the last give the same map. -/
theorem cpt_jump : fromCpt true [.other [0, 0, 0, 0, 1, 255, 0, 0], .other [1, 0, 255, 0, 2, 0, 0, 255]] =
    fromCpt true [.other [0, 0, 0, 0, 1, 0, 255, 0], .other [1, 0, 255, 0, 2, 0, 0, 255]] := rfl

/-- a table -/
def exTable : List Line := [.comment, .model "HSV".toList, .other [-10, 120, 1, 1, 0, 180, 1, 1], .other [0, 180, 1, 1, 10, 240, 1, 1],
  .flag 'B' [0, 1, 1], .flag 'n' [0, 0, 1]]
example : (fromCpt true exTable).toOption = some ⟨[(some 0, (0, 1, 0)), (some (1 / 2), (0, 1, 1)), (some 1, (0, 0, 1))], some (1, 0, 0),
    none, none⟩ := by decide +kernel
example : WellFormed exTable := by
  intro xs hx
  simp only [exTable, List.mem_cons, Line.other.injEq, reduceCtorEq, List.not_mem_nil, or_false, false_or] at hx
  rcases hx with rfl | rfl <;> rfl

/-! ## The widget -/

/-- C115: the ticks of the colour bar: from the lower limit in steps, the last at or above the upper limit by less than a step. -/
theorem levels_spec (cmin cmax step : ℤ) (hs : 0 < step) (hc : cmin ≤ cmax) : ∃ n : ℕ,
    levels cmin cmax step = .ok ((List.range (n + 1)).map fun k : ℕ => cmin + step * (k : ℤ)) ∧
    cmax ≤ cmin + step * n ∧ cmin + step * n < cmax + step := by
  set q := ((cmax + step - cmin) + step - 1) / step with hq
  have h1 : step * q ≤ (cmax + step - cmin) + step - 1 := Int.mul_ediv_self_le hs.ne'
  have h2 : (cmax + step - cmin) + step - 1 < step * q + step := by
    have := Int.lt_mul_ediv_self_add (x := (cmax + step - cmin) + step - 1) hs
    rwa [← hq] at this
  have hq1 : 1 ≤ q := by
    by_contra h
    have : step * q ≤ 0 := by nlinarith
    omega
  obtain ⟨n, hn⟩ : ∃ n : ℕ, q = (n : ℤ) + 1 := ⟨(q - 1).toNat, by omega⟩
  refine ⟨n, ?_, ?_, ?_⟩
  · unfold levels
    rw [if_neg hs.ne', ← hq, hn]
    rfl
  · rw [hn] at h2; linarith [mul_add step (n : ℤ) 1]
  · rw [hn] at h1; linarith [mul_add step (n : ℤ) 1]

/-- C115 (negative): a range of less than `steps` units, such as 0 to 5 with the default of ten, starts with a step of zero, and the
ticks then raise a `ValueError`; so does the slider at its lower end. -/
theorem step_zero (vmin vmax steps : ℤ) (h0 : vmin ≤ vmax) (h : vmax - vmin < steps) :
    firstStep vmin vmax steps = .ok 0 ∧ levels vmin vmax 0 = .error .value := by
  refine ⟨?_, rfl⟩
  unfold firstStep
  rw [if_neg (by omega), Int.ediv_eq_zero_of_lt (by omega) h]

/-- C115: otherwise the first step is positive and gives at least `steps` intervals. -/
theorem step_positive (vmin vmax steps : ℤ) (hs : 0 < steps) (h : steps ≤ vmax - vmin) :
    ∃ k, firstStep vmin vmax steps = .ok k ∧ 0 < k ∧ steps * k ≤ vmax - vmin ∧ vmax - vmin < steps * (k + 1) := by
  refine ⟨(vmax - vmin) / steps, by unfold firstStep; rw [if_neg hs.ne'], ?_, Int.mul_ediv_self_le hs.ne', ?_⟩
  · exact (Int.le_ediv_iff_mul_le hs).2 (by linarith)
  · have := Int.lt_mul_ediv_self_add (x := vmax - vmin) hs
    rw [mul_add, mul_one]; exact this

/-- C115: the name of the map that is asked for: the one chosen, with `_r` if it is reversed; different choices give different maps
(for names without the suffix). -/
theorem mapName_inj (a b : List Char) (x y : Bool) (ha : ¬ "_r".toList <:+ a) (hb : ¬ "_r".toList <:+ b)
    (h : mapName a x = mapName b y) : a = b ∧ x = y := by
  unfold mapName at h
  cases x <;> cases y
  · simpa using h
  · simp only [Bool.false_eq_true, if_false, List.append_nil, if_true] at h
    exact absurd ⟨b, h.symm⟩ ha
  · simp only [Bool.false_eq_true, if_false, List.append_nil, if_true] at h
    exact absurd ⟨a, h⟩ hb
  · simp only [if_true] at h
    exact ⟨List.append_cancel_right h, rfl⟩

/-- C115: the menu has the names of the program that matplotlib has. -/
theorem options_spec (available listed : List String) (x : String) : x ∈ options available listed ↔ x ∈ listed ∧ x ∈ available := by
  simp [options]

example : (levels 0 10 4).toOption = some [0, 4, 8, 12] := by decide +kernel
example : (firstStep 0 5 10).toOption = some 0 ∧ (firstStep (-100) 100 10).toOption = some 20 := by decide +kernel
example : ¬ "_r".toList <:+ "viridis".toList := by decide

end Verif.Colours
