import Mathlib.Data.List.Forall2
import Mathlib.Tactic.Linarith
import Mathlib.Tactic.Ring
import Mathlib.Tactic.FieldSimp
import Mathlib.Tactic.Positivity
import Mathlib.Algebra.BigOperators.Group.List.Basic
import Verif.GeoFigures.Spec
/-!
# C111: figures of geocenter series
-/
namespace Verif.GeoFigures

/-- **C111** The months of a figure: each month from start to end that is not missing, once, in order. -/
theorem months_right (start stop : ℤ) (missing : List ℤ) :
    (monthsOf start stop missing).Pairwise (· < ·) ∧
    ∀ m, m ∈ monthsOf start stop missing ↔ start ≤ m ∧ m ≤ stop ∧ m ∉ missing := by
  constructor
  · apply List.Pairwise.filter
    rw [List.pairwise_map]
    refine List.Pairwise.imp ?_ List.pairwise_lt_range
    intro a b h
    omega
  · intro m
    simp only [monthsOf, List.mem_filter, List.mem_map, List.mem_range, decide_eq_true_eq]
    constructor
    · rintro ⟨⟨i, hi, rfl⟩, h⟩
      exact ⟨by omega, by omega, h⟩
    · rintro ⟨h1, h2, h3⟩
      exact ⟨⟨(m - start).toNat, by omega, by omega⟩, h3⟩

theorem mapM_ok {α β : Type} (f : α → Except Err β) (g : α → β) (l : List α)
    (h : ∀ a ∈ l, f a = .ok (g a)) : l.mapM f = .ok (l.map g) := by
  induction l with
  | nil => rfl
  | cons a l ih =>
    rw [List.mapM_cons, h a (by simp), ih (fun b hb => h b (by simp [hb]))]
    rfl

theorem mapM_ok_inv {α β : Type} (f : α → Except Err β) (l : List α) (r : List β)
    (h : l.mapM f = .ok r) : List.Forall₂ (fun a b => f a = .ok b) l r := by
  induction l generalizing r with
  | nil => cases h; exact List.Forall₂.nil
  | cons a l ih =>
    rw [List.mapM_cons] at h
    rcases ha : f a with e | b
    · rw [ha] at h; cases h
    · rw [ha] at h
      rcases hl : l.mapM f with e | bs
      · rw [hl] at h; cases h
      · rw [hl] at h
        injection h with h
        subst h
        exact List.Forall₂.cons ha (ih bs hl)

theorem mapM_error {α β : Type} (f : α → Except Err β) (l : List α) (e : Err)
    (h1 : ∃ a ∈ l, f a = .error e) (h2 : ∀ a ∈ l, ∀ e', f a = .error e' → e' = e) : l.mapM f = .error e := by
  induction l with
  | nil => obtain ⟨a, ha, _⟩ := h1; simp at ha
  | cons a l ih =>
    rw [List.mapM_cons]
    rcases ha : f a with e' | b
    · rw [h2 a (by simp) e' ha]; rfl
    · have : l.mapM f = .error e := by
        refine ih ?_ (fun x hx => h2 x (by simp [hx]))
        obtain ⟨x, hx, he⟩ := h1
        rcases List.mem_cons.1 hx with rfl | hx
        · rw [ha] at he; cases he
        · exact ⟨x, hx, he⟩
      rw [this]; rfl

theorem point_cases (recs : List Rec) (v : Rec → Option ℝ) (m : ℤ) :
    ((recs.filter fun r => r.month = m).length ≤ 1 → ∃ p, point recs v m = .ok p) ∧
    (¬ (recs.filter fun r => r.month = m).length ≤ 1 → point recs v m = .error .value) := by
  unfold point
  rcases h : recs.filter fun r => r.month = m with _ | ⟨a, _ | ⟨b, l⟩⟩
  · rw [h]; exact ⟨fun _ => ⟨_, rfl⟩, fun h => absurd (by simp) h⟩
  · rw [h]; exact ⟨fun _ => ⟨_, rfl⟩, fun h => absurd (by simp) h⟩
  · rw [h]; exact ⟨fun h => by simp at h, fun _ => rfl⟩

theorem point_is (recs : List Rec) (v : Rec → Option ℝ) (w : Rec → ℝ) (hv : ∀ r, v r = some (w r)) (m : ℤ)
    (p : Option ℝ × Option ℝ) (h : point recs v m = .ok p) : IsPoint recs w m p := by
  unfold point at h
  rcases hf : recs.filter fun r => r.month = m with _ | ⟨a, _ | ⟨b, l⟩⟩
  · rw [hf] at h
    injection h with h
    subst h
    refine ⟨fun r hr hm => ?_, fun _ => rfl⟩
    have : r ∈ recs.filter fun r => r.month = m := List.mem_filter.2 ⟨hr, by simpa using hm⟩
    rw [hf] at this; simp at this
  · rw [hf] at h
    injection h with h
    subst h
    refine ⟨fun r hr hm => ?_, fun hn => ?_⟩
    · have : r ∈ recs.filter fun r => r.month = m := List.mem_filter.2 ⟨hr, by simpa using hm⟩
      rw [hf] at this
      simp only [List.mem_singleton] at this
      subst this
      rw [hv]
    · have : a ∈ recs.filter fun r => r.month = m := by rw [hf]; simp
      rw [List.mem_filter] at this
      exact absurd (by simpa using this.2) (hn a this.1)
  · rw [hf] at h; cases h

theorem line_ok (months : List ℤ) (recs : List Rec) (v : Rec → Option ℝ) (w : Rec → ℝ)
    (hv : ∀ r, v r = some (w r)) (hs : Single months recs) :
    ∃ p, line months recs v = .ok p ∧ List.Forall₂ (IsPoint recs w) months p := by
  have h1 : ∀ m ∈ months, ∃ p, point recs v m = .ok p := fun m hm => (point_cases recs v m).1 (hs m hm)
  have h2 : ∃ p, line months recs v = .ok p := by
    unfold line
    rcases h : months.mapM (point recs v) with e | p
    · exfalso
      have hg : ∀ m ∈ months, point recs v m =
          .ok (match point recs v m with | .ok p => p | .error _ => (none, none)) := by
        intro m hm
        obtain ⟨p, hp⟩ := h1 m hm
        rw [hp]
      rw [mapM_ok _ _ months hg] at h
      cases h
    · exact ⟨p, rfl⟩
  obtain ⟨p, hp⟩ := h2
  refine ⟨p, hp, ?_⟩
  have := mapM_ok_inv _ _ _ hp
  exact this.imp fun m q h => point_is recs v w hv m q h

theorem line_fail (months : List ℤ) (recs : List Rec) (v : Rec → Option ℝ) (hs : ¬ Single months recs) :
    line months recs v = .error .value := by
  unfold line
  apply mapM_error
  · unfold Single at hs
    rw [not_forall] at hs
    obtain ⟨m, hs⟩ := hs
    rw [Classical.not_imp] at hs
    exact ⟨m, hs.1, (point_cases recs v m).2 hs.2⟩
  · intro m hm e he
    by_cases h : (recs.filter fun r => r.month = m).length ≤ 1
    · obtain ⟨p, hp⟩ := (point_cases recs v m).1 h
      rw [hp] at he; cases he
    · rw [(point_cases recs v m).2 h] at he
      injection he with he; exact he.symm

theorem value_eq (radius : ℝ) (start : ℤ) (g : Rec → ℝ) (recs : List Rec) (hb : base start recs ≠ []) (r : Rec) :
    value radius start g recs r = some (variation radius start g recs r) := by
  unfold value meanOver
  unfold base at hb
  simp only [if_neg hb, Option.map_some, cart, variation, average, base, List.length_map]
  congr 2
  norm_num

/-- **C111** The lines of a series, when no month of the figure has two records and the base period has data:
panel x shows C11, y shows S11 and z shows C10, one point per month, the variation in millimetres about the
average of the base period at the time of the record, and a break where there is no record. -/
theorem draw_right (radius : ℝ) (start : ℤ) (months : List ℤ) (recs : List Rec) (hs : Single months recs)
    (hb : base start recs ≠ []) :
    ∃ p, draw radius start months recs = .ok p ∧
      List.Forall₂ (IsPoint recs (variation radius start (·.c11) recs)) months p.x ∧
      List.Forall₂ (IsPoint recs (variation radius start (·.s11) recs)) months p.y ∧
      List.Forall₂ (IsPoint recs (variation radius start (·.c10) recs)) months p.z := by
  obtain ⟨x, hx, hx'⟩ := line_ok months recs _ _ (value_eq radius start (·.c11) recs hb) hs
  obtain ⟨y, hy, hy'⟩ := line_ok months recs _ _ (value_eq radius start (·.s11) recs hb) hs
  obtain ⟨z, hz, hz'⟩ := line_ok months recs _ _ (value_eq radius start (·.c10) recs hb) hs
  refine ⟨⟨x, y, z⟩, ?_, hx', hy', hz'⟩
  unfold draw
  rw [hx, hy, hz]; rfl

/-- **C111** Two records of a month of the figure: ValueError, no figure. -/
theorem draw_fails (radius : ℝ) (start : ℤ) (months : List ℤ) (recs : List Rec) (hs : ¬ Single months recs) :
    draw radius start months recs = .error .value := by
  unfold draw
  rw [line_fail months recs _ hs]; rfl

/-- **C111** Without data in the base period all values are NaN: the panels are empty, without an error. -/
theorem draw_empty (radius : ℝ) (start : ℤ) (months : List ℤ) (recs : List Rec) (hs : Single months recs)
    (hb : base start recs = []) :
    ∃ p, draw radius start months recs = .ok p ∧ ∀ q ∈ p.x ++ p.y ++ p.z, q.2 = none := by
  have hv : ∀ g, value radius start g recs = fun _ => none := by
    intro g
    funext r
    unfold value meanOver
    unfold base at hb
    simp only [hb, if_true, Option.map_none]
  have key : ∃ p, line months recs (fun _ => none) = .ok p ∧ ∀ q ∈ p, q.2 = none := by
    have h1 : ∀ m ∈ months, ∃ p, point recs (fun _ => none) m = .ok p :=
      fun m hm => (point_cases recs _ m).1 (hs m hm)
    have h2 : ∃ p, line months recs (fun _ => none) = .ok p := by
      have hg : ∀ m ∈ months, point recs (fun _ => none) m =
          .ok (match point recs (fun _ => none) m with | .ok p => p | .error _ => (none, none)) := by
        intro m hm
        obtain ⟨p, hp⟩ := h1 m hm
        rw [hp]
      exact ⟨_, mapM_ok _ _ months hg⟩
    obtain ⟨p, hp⟩ := h2
    refine ⟨p, hp, ?_⟩
    have h3 := mapM_ok_inv _ _ _ hp
    intro q hq
    clear hp h1
    induction h3 with
    | nil => simp at hq
    | @cons m q' ms ps hmq _ ih =>
      rcases List.mem_cons.1 hq with rfl | hq
      · unfold point at hmq
        rcases hf : recs.filter fun r => r.month = m with _ | ⟨a, _ | ⟨b, l⟩⟩ <;> rw [hf] at hmq
        · injection hmq with h; rw [← h]
        · injection hmq with h; rw [← h]
        · cases hmq
      · exact ih (fun m' hm' => hs m' (by simp [hm'])) hq
  obtain ⟨p, hp, hq⟩ := key
  refine ⟨⟨p, p, p⟩, ?_, ?_⟩
  · unfold draw
    rw [hv, hv, hv, hp]; rfl
  · intro q hq'
    simp only [List.mem_append, or_self] at hq'
    exact hq q hq'

theorem sum_sub_const (l : List Rec) (g : Rec → ℝ) (a : ℝ) :
    (l.map fun r => g r - a).sum = (l.map g).sum - (l.length : ℝ) * a := by
  induction l with
  | nil => simp
  | cons x l ih => simp only [List.map_cons, List.sum_cons, ih, List.length_cons]; push_cast; ring

/-- **C111** The variations that are drawn average to zero over the base period. -/
theorem variation_sum (radius : ℝ) (start : ℤ) (g : Rec → ℝ) (recs : List Rec) (hb : base start recs ≠ []) :
    ((base start recs).map (variation radius start g recs)).sum = 0 := by
  set b := base start recs with hbd
  have hl : (b.length : ℝ) ≠ 0 := by
    simpa using hb
  have e : (b.map (variation radius start g recs)) =
      (b.map fun r => g r - average (b.map g)).map fun x => x * (radius * Real.sqrt 3 / 1.021) := by
    rw [List.map_map]
    apply List.map_congr_left
    intro r _
    unfold variation
    simp only [Function.comp]
    rw [← hbd]; ring
  rw [e, List.sum_map_mul_right, List.map_id', sum_sub_const]
  unfold average
  rw [List.length_map, mul_div_cancel₀ _ hl, sub_self, zero_mul]

/-- **C111** The figure does not depend on the origin of the coefficients. -/
theorem draw_shift (radius : ℝ) (start : ℤ) (months : List ℤ) (recs : List Rec) (a b c : ℝ) :
    draw radius start months (recs.map fun r => { r with c10 := r.c10 + a, c11 := r.c11 + b, s11 := r.s11 + c }) =
      draw radius start months recs := by
  set f : Rec → Rec := fun r => { r with c10 := r.c10 + a, c11 := r.c11 + b, s11 := r.s11 + c } with hf
  have hfil : ∀ (P : ℤ → Bool), (recs.map f).filter (fun r => P r.month) =
      (recs.filter fun r => P r.month).map f := by
    intro P
    rw [List.filter_map]; rfl
  have hval : ∀ (g : Rec → ℝ) (k : ℝ), (∀ r, g (f r) = g r + k) → ∀ r,
      value radius start g (recs.map f) (f r) = value radius start g recs r := by
    intro g k hg r
    unfold value meanOver
    have h1 := hfil fun m => decide (start ≤ m ∧ m ≤ 176)
    simp only [h1, List.map_eq_nil_iff, List.map_map, List.length_map]
    by_cases hk : (recs.filter fun r => decide (start ≤ r.month ∧ r.month ≤ 176)) = []
    · simp only [hk, if_true, Option.map_none]
    · simp only [hk, if_false, Option.map_some]
      congr 2
      have hl : ((recs.filter fun r => decide (start ≤ r.month ∧ r.month ≤ 176)).length : ℝ) ≠ 0 := by
        simpa using hk
      have h2 : ((recs.filter fun r => decide (start ≤ r.month ∧ r.month ≤ 176)).map (g ∘ f)).sum =
          ((recs.filter fun r => decide (start ≤ r.month ∧ r.month ≤ 176)).map g).sum +
            ((recs.filter fun r => decide (start ≤ r.month ∧ r.month ≤ 176)).length : ℝ) * k := by
        have := sum_sub_const (recs.filter fun r => decide (start ≤ r.month ∧ r.month ≤ 176)) g (-k)
        rw [show (g ∘ f) = fun r => g r - -k from funext fun r => by simp [hg]]
        rw [this]; ring
      rw [h2, hg, add_div, mul_div_cancel_left₀ _ hl]
      ring
  have hline : ∀ (g : Rec → ℝ) (k : ℝ), (∀ r, g (f r) = g r + k) →
      line months (recs.map f) (value radius start g (recs.map f)) =
        line months recs (value radius start g recs) := by
    intro g k hg
    unfold line
    congr 1
    funext m
    unfold point
    have h1 := hfil fun m' => decide (m' = m)
    rw [h1]
    generalize recs.filter (fun r => decide (r.month = m)) = L
    rcases L with _ | ⟨x, _ | ⟨y, l⟩⟩
    · rfl
    · simp only [List.map_cons, List.map_nil]
      rw [hval g k hg]
    · rfl
  unfold draw
  rw [hline (·.c11) b (fun _ => rfl), hline (·.s11) c (fun _ => rfl), hline (·.c10) a (fun _ => rfl)]

/-- **C111** The shaded span: drawn exactly if the series has one record of month 186 and one of month 198. -/
theorem span_iff (recs : List Rec) (g : ℝ × ℝ) :
    span recs = .ok g ↔ ∃ a b, Only recs 186 a ∧ Only recs 198 b ∧ g = (a.time, b.time) := by
  unfold span Only
  constructor
  · intro h
    rcases h1 : recs.filter fun r => r.month = 186 with _ | ⟨a, _ | ⟨a', l⟩⟩ <;> rw [h1] at h
    · cases h
    · rcases h2 : recs.filter fun r => r.month = 198 with _ | ⟨b, _ | ⟨b', l⟩⟩ <;> rw [h2] at h
      · cases h
      · injection h with h
        exact ⟨a, b, h1, h2, h.symm⟩
      · cases h
    · cases h
  · rintro ⟨a, b, h1, h2, rfl⟩
    rw [h1, h2]

/-- the span fails only with ValueError -/
theorem span_error (recs : List Rec) (h : ¬ ∃ a b, Only recs 186 a ∧ Only recs 198 b) :
    span recs = .error .value := by
  rcases hs : span recs with e | g
  · unfold span at hs
    rcases h1 : recs.filter fun r => r.month = 186 with _ | ⟨a, _ | ⟨a', l⟩⟩ <;> rw [h1] at hs
    · injection hs with hs; rw [← hs]
    · rcases h2 : recs.filter fun r => r.month = 198 with _ | ⟨b, _ | ⟨b', l⟩⟩ <;> rw [h2] at hs
      · injection hs with hs; rw [← hs]
      · cases hs
      · injection hs with hs; rw [← hs]
    · injection hs with hs; rw [← hs]
  · obtain ⟨a, b, ha, hb, _⟩ := (span_iff recs g).1 hs
    exact absurd ⟨a, b, ha, hb⟩ h

/-! ## The time axis -/

/-- **C111** Every record of the figure lies left of the end of the axis; it lies right of its begin for every
first month but November and December. -/
theorem axis_covers (start stop m : ℤ) (t : ℝ) (h1 : start ≤ m) (h2 : m ≤ stop) (ht : InMonth m t) :
    t < (axis start stop).2 ∧ (start % 12 ≠ 11 → start % 12 ≠ 0 → (axis start stop).1 ≤ t) := by
  obtain ⟨ht1, ht2⟩ := ht
  have c1 : (start : ℝ) ≤ m := by exact_mod_cast h1
  have c2 : (m : ℝ) ≤ stop := by exact_mod_cast h2
  unfold axis
  constructor
  · simp only; linarith
  · intro a1 a2
    have : (start + 1) / 12 * 12 ≤ start - 1 := by omega
    have c3 : (((start + 1) / 12 : ℤ) : ℝ) * 12 ≤ start - 1 := by exact_mod_cast this
    simp only; linarith

/-- **C111** Deviation: a figure that starts in a November or December does not show its first month. -/
theorem axis_cuts (start stop : ℤ) (t : ℝ) (ht : InMonth start t)
    (hs : start % 12 = 11 ∨ start % 12 = 0) : t < (axis start stop).1 := by
  obtain ⟨_, ht2⟩ := ht
  unfold axis
  have : start ≤ (start + 1) / 12 * 12 := by omega
  have c3 : (start : ℝ) ≤ (((start + 1) / 12 : ℤ) : ℝ) * 12 := by exact_mod_cast this
  simp only; linarith

example : InMonth 11 2002.9 ∧ (11 : ℤ) % 12 = 11 := by
  unfold InMonth
  norm_num

/-! ## The programs -/

/-- **C111** Processing centers: a figure has, in order, the lines of the file of each center, and the span of
the last center. -/
theorem processingCenters_right (read : String → Except Err (List Rec)) (radius : ℝ) (procs : List String)
    (drel : String) (start stop : ℤ) (missing : List ℤ) (F : Figure)
    (h : processingCenters read radius procs drel start stop missing = .ok F) :
    List.Forall₂ (fun pr (l : String × String × Panels (List (Option ℝ × Option ℝ))) =>
      l.1 = pr ∧ centerColor pr = some l.2.1 ∧ ∃ recs, read (centerFile drel pr) = .ok recs ∧
        draw radius start (monthsOf start stop missing) recs = .ok l.2.2) procs F.lines ∧
    ∃ pr recs, procs.getLast? = some pr ∧ read (centerFile drel pr) = .ok recs ∧ span recs = .ok F.gap := by
  unfold processingCenters at h
  rcases hm : procs.mapM (centerLine read radius drel start (monthsOf start stop missing)) with e | ls
  · rw [hm] at h; cases h
  rw [hm] at h
  have hf := mapM_ok_inv _ _ _ hm
  have key : ∀ (pr : String) (l : (String × String × Panels (List (Option ℝ × Option ℝ))) × List Rec), centerLine read radius drel start (monthsOf start stop missing) pr = .ok l →
      l.1.1 = pr ∧ centerColor pr = some l.1.2.1 ∧ read (centerFile drel pr) = .ok l.2 ∧
        draw radius start (monthsOf start stop missing) l.2 = .ok l.1.2.2 := by
    intro pr l hl
    unfold centerLine at hl
    rcases h1 : read (centerFile drel pr) with e | recs
    · rw [h1] at hl; cases hl
    rw [h1] at hl
    replace hl : (do
      let p ← draw radius start (monthsOf start stop missing) recs
      let c ← colorOrKey (centerColor pr) .key
      (.ok ((pr, c, p), recs) : Except Err _)) = .ok l := hl
    rcases h2 : draw radius start (monthsOf start stop missing) recs with e | p
    · rw [h2] at hl; cases hl
    rw [h2] at hl
    rcases h3 : centerColor pr with _ | c
    · rw [h3] at hl; cases hl
    · rw [h3] at hl
      injection hl with hl
      subst hl
      exact ⟨rfl, rfl, rfl, h2⟩
  replace h : (match ls.getLast? with
    | none => (Except.error Err.name : Except Err Figure)
    | some l => do
      let g ← span l.2
      (.ok ⟨ls.map Prod.fst, g⟩ : Except Err Figure)) = .ok F := h
  rcases hl : ls.getLast? with _ | l
  · rw [hl] at h; cases h
  rw [hl] at h
  rcases hs : span l.2 with e | g
  · simp only [hs] at h; cases h
  · simp only [hs] at h
    injection h with h
    subst h
    refine ⟨?_, ?_⟩
    · rw [List.forall₂_map_right_iff]
      refine hf.imp fun pr l hpl => ?_
      obtain ⟨k1, k2, k3, k4⟩ := key pr l hpl
      exact ⟨k1, k2, l.2, k3, k4⟩
    · have hlast : ∀ (ps : List String) (qs : List _), List.Forall₂
          (fun a b => centerLine read radius drel start (monthsOf start stop missing) a = .ok b) ps qs →
          qs.getLast? = some l → ∃ pr, ps.getLast? = some pr ∧
            centerLine read radius drel start (monthsOf start stop missing) pr = .ok l := by
        intro ps qs hpq
        induction hpq with
        | nil => intro h; cases h
        | @cons a b as bs hab htl ih =>
          intro h
          cases htl with
          | nil =>
            simp only [List.getLast?_singleton, Option.some.injEq] at h
            subst h
            exact ⟨a, by simp, hab⟩
          | @cons a' b' as' bs' h1 h2 =>
            rw [List.getLast?_cons_cons] at h
            obtain ⟨pr, hp1, hp2⟩ := ih h
            exact ⟨pr, by rw [List.getLast?_cons_cons]; exact hp1, hp2⟩
      obtain ⟨pr, hp1, hp2⟩ := hlast _ _ hf hl
      obtain ⟨_, _, k3, _⟩ := key pr l hp2
      exact ⟨pr, l.2, hp1, k3, hs⟩

/-- **C111** When the files can be read, the figure of the processing centers is drawn exactly if there is a
center, all centers have a colour, no month of the figure has two records in any file, and the last file has one record
each of months 186 and 198. -/
theorem processingCenters_iff (read : String → Except Err (List Rec)) (data : String → List Rec) (radius : ℝ)
    (procs : List String) (drel : String) (start stop : ℤ) (missing : List ℤ)
    (hr : ∀ pr ∈ procs, read (centerFile drel pr) = .ok (data pr)) :
    (∃ F, processingCenters read radius procs drel start stop missing = .ok F) ↔
      (∀ pr ∈ procs, (∃ c, centerColor pr = some c) ∧ Single (monthsOf start stop missing) (data pr)) ∧
      ∃ pr, procs.getLast? = some pr ∧ ∃ a b, Only (data pr) 186 a ∧ Only (data pr) 198 b := by
  constructor
  · rintro ⟨F, hF⟩
    obtain ⟨h1, pr, recs, h2, h3, h4⟩ := processingCenters_right read radius procs drel start stop missing F hF
    refine ⟨?_, pr, h2, ?_⟩
    · intro q hq
      have : ∀ (ps : List String) qs, List.Forall₂ (fun pr (l : String × String × Panels (List (Option ℝ × Option ℝ))) =>
          l.1 = pr ∧ centerColor pr = some l.2.1 ∧ ∃ recs, read (centerFile drel pr) = .ok recs ∧
          draw radius start (monthsOf start stop missing) recs = .ok l.2.2) ps qs → q ∈ ps →
          ∃ l, centerColor q = some l ∧ ∃ recs, read (centerFile drel q) = .ok recs ∧
          ∃ p, draw radius start (monthsOf start stop missing) recs = .ok p := by
        intro ps qs hpq
        induction hpq with
        | nil => intro h; simp at h
        | @cons a b _ _ hab _ ih =>
          intro h
          rcases List.mem_cons.1 h with rfl | h
          · obtain ⟨_, k1, r, k2, k3⟩ := hab
            exact ⟨_, k1, r, k2, _, k3⟩
          · exact ih h
      obtain ⟨c, hc, r, hr1, p, hp⟩ := this _ _ h1 hq
      rw [hr q hq] at hr1
      injection hr1 with hr1
      subst hr1
      refine ⟨⟨c, hc⟩, ?_⟩
      by_contra hn
      rw [draw_fails _ _ _ _ hn] at hp
      cases hp
    · have hm : pr ∈ procs := List.mem_of_getLast? h2
      rw [hr pr hm] at h3
      injection h3 with h3
      subst h3
      obtain ⟨a, b, ha, hb, _⟩ := (span_iff _ _).1 h4
      exact ⟨a, b, ha, hb⟩
  · rintro ⟨h1, pr, h2, a, b, ha, hb⟩
    have hd : ∀ q ∈ procs, ∃ p, draw radius start (monthsOf start stop missing) (data q) = .ok p := by
      intro q hq
      by_cases hb : base start (data q) = []
      · obtain ⟨p, hp, _⟩ := draw_empty radius start _ _ (h1 q hq).2 hb
        exact ⟨p, hp⟩
      · obtain ⟨p, hp, _⟩ := draw_right radius start _ _ (h1 q hq).2 hb
        exact ⟨p, hp⟩
    have : Nonempty (Panels (List (Option ℝ × Option ℝ))) := ⟨⟨[], [], []⟩⟩
    choose! P hP using hd
    choose! Co hCo using fun q hq => (h1 q hq).1
    have hc : ∀ q ∈ procs, centerLine read radius drel start (monthsOf start stop missing) q =
        .ok ((q, Co q, P q), data q) := by
      intro q hq
      unfold centerLine
      rw [hr q hq, hCo q hq]
      show (do
        let p ← draw radius start (monthsOf start stop missing) (data q)
        (.ok ((q, Co q, p), data q) : Except Err _)) = _
      rw [hP q hq]; rfl
    unfold processingCenters
    rw [mapM_ok _ _ procs hc]
    have hl : (procs.map fun q => (((q, Co q, P q), data q) : (String × String × Panels _) × List Rec)).getLast? =
        some ((pr, Co pr, P pr), data pr) := by
      rw [List.getLast?_map, h2]; rfl
    have hs : span (data pr) = .ok (a.time, b.time) := (span_iff _ _).2 ⟨a, b, ha, hb, rfl⟩
    refine ⟨⟨(procs.map fun q => (((q, Co q, P q), data q) : (String × String × Panels _) × List Rec)).map (·.1),
      (a.time, b.time)⟩, ?_⟩
    show (match (procs.map fun q => (((q, Co q, P q), data q) : (String × String × Panels _) × List Rec)).getLast? with
      | none => (Except.error Err.name : Except Err Figure)
      | some l => do
        let g ← span l.2
        (.ok ⟨(procs.map fun q => (((q, Co q, P q), data q) : (String × String × Panels _) × List Rec)).map Prod.fst, g⟩ :
          Except Err Figure)) = _
    rw [hl]
    show (do
        let g ← span (data pr)
        (.ok ⟨_, g⟩ : Except Err Figure)) = _
    rw [hs]; rfl

/-- a series with one record each of months 10, 186, 198 -/
noncomputable def demo : List Rec :=
  [⟨10, 2002.8, 1, 2, 3⟩, ⟨186, 2017.5, 1, 1, 1⟩, ⟨198, 2018.5, 0, 0, 0⟩]

example : Single (monthsOf 4 200 [6, 7]) demo ∧ base 4 demo ≠ [] ∧
    (∃ a b, Only demo 186 a ∧ Only demo 198 b) ∧ centerColor "GFZwPT" = some "dodgerblue" := by
  refine ⟨?_, ?_, ⟨⟨186, 2017.5, 1, 1, 1⟩, ⟨198, 2018.5, 0, 0, 0⟩, ?_, ?_⟩, by decide⟩
  · intro m _
    unfold demo
    by_cases h1 : (10 : ℤ) = m
    · subst h1; simp [List.filter]
    · by_cases h2 : (186 : ℤ) = m
      · subst h2; simp [List.filter]
      · by_cases h3 : (198 : ℤ) = m
        · subst h3; simp [List.filter]
        · simp [List.filter, h1, h2, h3]
  · simp [base, demo, List.filter]
  · simp [Only, demo, List.filter]
  · simp [Only, demo, List.filter]

/-- **C111** A center that is not in the table of colours (e.g. CNES) ends the run, whatever the files hold. -/
theorem processingCenters_unknown (read : String → Except Err (List Rec)) (radius : ℝ) (procs : List String)
    (drel : String) (start stop : ℤ) (missing : List ℤ) (pr : String) (hp : pr ∈ procs)
    (hc : pr ∉ ["CSR", "GFZ", "JPL", "GFZwPT", "GFZ+CS21", "GFZ+CS21+CS22"]) :
    ∀ F, processingCenters read radius procs drel start stop missing ≠ .ok F := by
  intro F hF
  obtain ⟨h1, _⟩ := processingCenters_right read radius procs drel start stop missing F hF
  have hn : centerColor pr = none := by
    simp only [List.mem_cons, List.not_mem_nil, or_false, not_or] at hc
    unfold centerColor
    simp only [hc, if_false]
  have : ∀ (ps : List String) (qs : List (String × String × Panels (List (Option ℝ × Option ℝ)))),
      List.Forall₂ (fun a b => b.1 = a ∧ centerColor a = some b.2.1 ∧ ∃ recs, read (centerFile drel a) = .ok recs ∧
        draw radius start (monthsOf start stop missing) recs = .ok b.2.2) ps qs → pr ∈ ps → False := by
    intro ps qs hpq
    induction hpq with
    | nil => intro h; simp at h
    | @cons a b _ _ hab _ ih =>
      intro h
      rcases List.mem_cons.1 h with rfl | h
      · rw [hn] at hab; cases hab.2.1
      · exact ih h
  exact this _ _ h1 hp

example : "CNES" ∉ ["CSR", "GFZ", "JPL", "GFZwPT", "GFZ+CS21", "GFZ+CS21+CS22"] := by decide

/-- **C111** Ocean models: at most five models, in order, each with its own colour; the span is that of the
standard model of the release. -/
theorem oceanModels_right (read : String → Except Err (List Rec)) (radius : ℝ) (proc drel : String)
    (models : List String) (start stop : ℤ) (missing : List ℤ) (F : Figure)
    (h : oceanModels read radius proc drel models start stop missing = .ok F) :
    models.length ≤ 5 ∧ F.lines.length = models.length ∧
    (∀ (k : ℕ) (mdl : String), models[k]? = some mdl → ∃ l recs, F.lines[k]? = some l ∧
      l.1 = String.ofList (mdl.toList.map fun c => if c = '_' then '-' else c) ∧
      modelColors[k]? = some l.2.1 ∧ read (modelFile proc drel mdl) = .ok recs ∧
      draw radius start (monthsOf start stop missing) recs = .ok l.2.2) ∧
    ∃ recs, read (modelFile proc drel (if drel = "RL04" ∨ drel = "RL05" then "OMCT" else "MPIOM")) = .ok recs ∧
      span recs = .ok F.gap := by
  unfold oceanModels at h
  rcases hm : models.zipIdx.mapM (modelLine read radius proc drel start (monthsOf start stop missing)) with e | ls
  · rw [hm] at h; cases h
  rw [hm] at h
  replace h : (do
    let recs ← read (modelFile proc drel (modelOf drel))
    let g ← span recs
    (.ok ⟨ls, g⟩ : Except Err Figure)) = .ok F := h
  rcases hr : read (modelFile proc drel (modelOf drel)) with e | recs
  · rw [hr] at h; cases h
  rw [hr] at h
  replace h : (do
    let g ← span recs
    (.ok ⟨ls, g⟩ : Except Err Figure)) = .ok F := h
  rcases hs : span recs with e | g
  · rw [hs] at h; cases h
  rw [hs] at h
  injection h with h
  subst h
  have hf := mapM_ok_inv _ _ _ hm
  have key : ∀ (km : String × ℕ) (l : String × String × Panels (List (Option ℝ × Option ℝ))), modelLine read radius proc drel start (monthsOf start stop missing) km = .ok l →
      l.1 = String.ofList (km.1.toList.map fun c => if c = '_' then '-' else c) ∧
      modelColors[km.2]? = some l.2.1 ∧ ∃ recs, read (modelFile proc drel km.1) = .ok recs ∧
      draw radius start (monthsOf start stop missing) recs = .ok l.2.2 := by
    intro km l hl
    unfold modelLine at hl
    rcases h1 : read (modelFile proc drel km.1) with e | rs
    · rw [h1] at hl; cases hl
    rw [h1] at hl
    replace hl : (do
      let p ← draw radius start (monthsOf start stop missing) rs
      let c ← colorOrKey modelColors[km.2]? .index
      (.ok (String.ofList (km.1.toList.map fun c => if c = '_' then '-' else c), c, p) : Except Err _)) = .ok l := hl
    rcases h2 : draw radius start (monthsOf start stop missing) rs with e | p
    · rw [h2] at hl; cases hl
    rw [h2] at hl
    rcases h3 : modelColors[km.2]? with _ | c
    · rw [h3] at hl; cases hl
    · rw [h3] at hl
      injection hl with hl
      subst hl
      exact ⟨rfl, rfl, rs, rfl, h2⟩
  have hlen : ls.length = models.length := by
    have := hf.length_eq
    simpa using this.symm
  have hk : ∀ (k : ℕ) (mdl : String), models[k]? = some mdl → ∃ l, ls[k]? = some l ∧
      modelLine read radius proc drel start (monthsOf start stop missing) (mdl, k) = .ok l := by
    intro k mdl hkm
    have hz : models.zipIdx[k]? = some (mdl, k) := by
      simp [List.getElem?_zipIdx, hkm]
    have : ∀ (ps : List (String × ℕ)) (qs : List _) (i : ℕ), List.Forall₂
        (fun a b => modelLine read radius proc drel start (monthsOf start stop missing) a = .ok b) ps qs →
        ps[i]? = some (mdl, k) → ∃ l, qs[i]? = some l ∧
          modelLine read radius proc drel start (monthsOf start stop missing) (mdl, k) = .ok l := by
      intro ps qs i hpq
      induction hpq generalizing i with
      | nil => intro h; simp at h
      | @cons a b _ _ hab _ ih =>
        intro h
        cases i with
        | zero =>
          simp only [List.getElem?_cons_zero, Option.some.injEq] at h
          subst h
          exact ⟨b, rfl, hab⟩
        | succ i => simpa using ih i (by simpa using h)
    exact this _ _ k hf hz
  refine ⟨?_, hlen, ?_, recs, hr, hs⟩
  · by_contra hn
    obtain ⟨l, _, hl⟩ := hk 5 (models[5]'(by omega)) (by simp [List.getElem?_eq_getElem, show 5 < models.length by omega])
    have := (key _ _ hl).2.1
    simp [modelColors] at this
  · intro k mdl hkm
    obtain ⟨l, h1, h2⟩ := hk k mdl hkm
    obtain ⟨k1, k2, rs, k3, k4⟩ := key _ _ h2
    exact ⟨l, rs, h1, k1, k2, k3, k4⟩

/-- **C111** Comparison with Tellus: the series of the project and the Tellus series of the same center, each
about its own average; the span is that of the Tellus series. -/
theorem compareTellus_iff (readUCI readTellus : String → Except Err (List Rec)) (radius : ℝ) (drel : String)
    (start stop : ℤ) (missing : List ℤ) (pr : String) (a b : List Rec)
    (hp : pr ∈ ["CSR", "GFZ", "JPL"])
    (ha : readUCI (pr ++ "_" ++ drel ++ "_" ++ (if drel = "RL04" ∨ drel = "RL05" then "OMCT" else "MPIOM") ++
      "_SLF_iter.txt") = .ok a)
    (hb : readTellus ("TN-13_GEOC_" ++ pr ++ "_" ++ drel ++ ".txt") = .ok b) (F : Figure) :
    compareTellus readUCI readTellus radius drel start stop missing pr = .ok F ↔
      ∃ p q, draw radius start (monthsOf start stop missing) a = .ok p ∧
        draw radius start (monthsOf start stop missing) b = .ok q ∧ span b = .ok F.gap ∧
        F.lines = [("Iterated SLF", "darkorchid", p), ("JPL Tellus", "mediumseagreen", q)] := by
  have hfile : readUCI (centerFile drel pr) = .ok a := by
    rw [← ha]
    simp only [List.mem_cons, List.not_mem_nil, or_false] at hp
    have n1 : ¬ (pr = "GFZwPT" ∨ pr = "GFZ+CS21") := by
      rcases hp with rfl | rfl | rfl <;> decide
    have n2 : pr ≠ "GFZ+CS21+CS22" := by
      rcases hp with rfl | rfl | rfl <;> decide
    unfold centerFile modelOf
    rw [if_neg n1, if_neg n2]
  unfold compareTellus
  rw [hfile]
  constructor
  · intro h
    replace h : (do
      let p ← draw radius start (monthsOf start stop missing) a
      let b ← readTellus ("TN-13_GEOC_" ++ pr ++ "_" ++ drel ++ ".txt")
      let q ← draw radius start (monthsOf start stop missing) b
      let g ← span b
      (.ok ⟨[("Iterated SLF", "darkorchid", p), ("JPL Tellus", "mediumseagreen", q)], g⟩ : Except Err Figure)) =
        .ok F := h
    rcases h1 : draw radius start (monthsOf start stop missing) a with e | p
    · rw [h1] at h; cases h
    rw [h1, hb] at h
    replace h : (do
      let q ← draw radius start (monthsOf start stop missing) b
      let g ← span b
      (.ok ⟨[("Iterated SLF", "darkorchid", p), ("JPL Tellus", "mediumseagreen", q)], g⟩ : Except Err Figure)) =
        .ok F := h
    rcases h2 : draw radius start (monthsOf start stop missing) b with e | q
    · rw [h2] at h; cases h
    rw [h2] at h
    replace h : (do
      let g ← span b
      (.ok ⟨[("Iterated SLF", "darkorchid", p), ("JPL Tellus", "mediumseagreen", q)], g⟩ : Except Err Figure)) =
        .ok F := h
    rcases h3 : span b with e | g
    · rw [h3] at h; cases h
    rw [h3] at h
    injection h with h
    subst h
    exact ⟨p, q, rfl, rfl, rfl, rfl⟩
  · rintro ⟨p, q, h1, h2, h3, h4⟩
    show (do
      let p ← draw radius start (monthsOf start stop missing) a
      let b ← readTellus ("TN-13_GEOC_" ++ pr ++ "_" ++ drel ++ ".txt")
      let q ← draw radius start (monthsOf start stop missing) b
      let g ← span b
      (.ok ⟨[("Iterated SLF", "darkorchid", p), ("JPL Tellus", "mediumseagreen", q)], g⟩ : Except Err Figure)) = _
    rw [h1, hb]
    show (do
      let q ← draw radius start (monthsOf start stop missing) b
      let g ← span b
      (.ok ⟨[("Iterated SLF", "darkorchid", p), ("JPL Tellus", "mediumseagreen", q)], g⟩ : Except Err Figure)) = _
    rw [h2]
    show (do
      let g ← span b
      (.ok ⟨[("Iterated SLF", "darkorchid", p), ("JPL Tellus", "mediumseagreen", q)], g⟩ : Except Err Figure)) = _
    rw [h3, ← h4]
    rfl

/-! ## Monte Carlo -/

theorem nanmax_spec (ds : List ℝ) :
    (∀ d ∈ ds, ∃ v, nanmax ds = some v ∧ |d| ≤ v) ∧ ∀ v, nanmax ds = some v → ∃ d ∈ ds, v = |d| := by
  have key : ∀ (l : List ℝ) (a : ℝ), a ≤ l.foldl (fun a b => max a |b|) a ∧
      (∀ d ∈ l, |d| ≤ l.foldl (fun a b => max a |b|) a) ∧
      (l.foldl (fun a b => max a |b|) a = a ∨ ∃ d ∈ l, l.foldl (fun a b => max a |b|) a = |d|) := by
    intro l
    induction l with
    | nil => intro a; simp
    | cons x l ih =>
      intro a
      obtain ⟨h1, h2, h3⟩ := ih (max a |x|)
      refine ⟨le_trans (le_max_left _ _) h1, ?_, ?_⟩
      · intro d hd
        rcases List.mem_cons.1 hd with rfl | hd
        · exact le_trans (le_max_right _ _) h1
        · exact h2 d hd
      · rw [List.foldl_cons]
        rcases h3 with h3 | ⟨d, hd, h3⟩
        · rw [h3]
          rcases max_choice a |x| with h | h
          · left; exact h
          · right; exact ⟨x, by simp, h⟩
        · right; exact ⟨d, by simp [hd], h3⟩
  cases ds with
  | nil => simp [nanmax]
  | cons x l =>
    obtain ⟨h1, h2, h3⟩ := key l |x|
    constructor
    · intro d hd
      refine ⟨_, rfl, ?_⟩
      rcases List.mem_cons.1 hd with rfl | hd
      · exact h1
      · exact h2 d hd
    · intro v hv
      simp only [nanmax, Option.some.injEq] at hv
      rcases h3 with h3 | ⟨d, hd, h3⟩
      · exact ⟨x, by simp, by rw [← hv, h3]⟩
      · exact ⟨d, by simp [hd], by rw [← hv, h3]⟩

/-- **C111** The maximum of the label is the largest departure of any run from the mean of the runs at any month
(0 if there are no data). -/
theorem maxVar_right (rows : List (List ℝ)) (nruns : ℕ) :
    (∀ xs ∈ rows, ∀ k < nruns, |xs.getD k 0 - rowMean xs| ≤ maxVar rows nruns) ∧ 0 ≤ maxVar rows nruns ∧
    (maxVar rows nruns = 0 ∨ ∃ xs ∈ rows, ∃ k < nruns, maxVar rows nruns = |xs.getD k 0 - rowMean xs|) := by
  set step : ℝ → ℕ → ℝ := fun a k =>
    match nanmax (deviations rows k) with
    | none => a
    | some v => if a < v then v else a with hstep
  have hle : ∀ a k, a ≤ step a k := by
    intro a k
    simp only [hstep]
    rcases nanmax (deviations rows k) with _ | v
    · exact le_refl a
    · show a ≤ if a < v then v else a
      by_cases h : a < v
      · rw [if_pos h]; exact h.le
      · rw [if_neg h]
  have hge : ∀ a k, ∀ xs ∈ rows, |xs.getD k 0 - rowMean xs| ≤ step a k := by
    intro a k xs hx
    obtain ⟨v, hv, hd⟩ := (nanmax_spec (deviations rows k)).1 (xs.getD k 0 - rowMean xs)
      (List.mem_map.2 ⟨xs, hx, rfl⟩)
    simp only [hstep, hv]
    by_cases h : a < v
    · rw [if_pos h]; exact hd
    · rw [if_neg h]; linarith
  have hatt : ∀ a k, step a k = a ∨ ∃ xs ∈ rows, step a k = |xs.getD k 0 - rowMean xs| := by
    intro a k
    simp only [hstep]
    rcases hv : nanmax (deviations rows k) with _ | v
    · left; rfl
    · by_cases h : a < v
      · right
        obtain ⟨d, hd, hvd⟩ := (nanmax_spec (deviations rows k)).2 v hv
        obtain ⟨xs, hx, rfl⟩ := List.mem_map.1 hd
        refine ⟨xs, hx, ?_⟩
        simp only [if_pos h]; exact hvd
      · left; simp only [if_neg h]
  have hmv : ∀ n, maxVar rows n = (List.range n).foldl step 0 := fun n => rfl
  have hsucc : ∀ n, maxVar rows (n + 1) = step (maxVar rows n) n := by
    intro n
    rw [hmv, hmv, List.range_succ, List.foldl_append]; rfl
  induction nruns with
  | zero => refine ⟨by intro _ _ k hk; omega, le_refl _, Or.inl rfl⟩
  | succ n ih =>
    obtain ⟨i1, i2, i3⟩ := ih
    rw [hsucc]
    refine ⟨?_, le_trans i2 (hle _ _), ?_⟩
    · intro xs hx k hk
      rcases Nat.lt_succ_iff_lt_or_eq.1 hk with hk | rfl
      · exact le_trans (i1 xs hx k hk) (hle _ _)
      · exact hge _ _ xs hx
    · rcases hatt (maxVar rows n) n with h | ⟨xs, hx, h⟩
      · rw [h]
        rcases i3 with h0 | ⟨xs, hx, k, hk, h0⟩
        · left; exact h0
        · right; exact ⟨xs, hx, k, by omega, h0⟩
      · right; exact ⟨xs, hx, n, by omega, h⟩

theorem sum_le_length (l : List ℝ) (c : ℝ) (h : ∀ x ∈ l, x ≤ c) : l.sum ≤ (l.length : ℝ) * c := by
  induction l with
  | nil => simp
  | cons x l ih =>
    have h1 := h x (by simp)
    have h2 := ih fun y hy => h y (by simp [hy])
    simp only [List.sum_cons, List.length_cons]
    push_cast
    linarith

/-- **C111** The sigma of the label is at most the maximum of the label, and not negative. -/
theorem rms_le_max (rows : List (List ℝ)) (nruns : ℕ) (hn : 0 < nruns) :
    0 ≤ rms rows nruns ∧ rms rows nruns ≤ maxVar rows nruns := by
  obtain ⟨h1, h2, _⟩ := maxVar_right rows nruns
  have hn' : (0 : ℝ) < nruns := by exact_mod_cast hn
  constructor
  · unfold rms
    apply div_nonneg _ hn'.le
    apply List.sum_nonneg
    intro x hx
    obtain ⟨k, _, rfl⟩ := List.mem_map.1 hx
    exact Real.sqrt_nonneg _
  · unfold rms
    rw [div_le_iff₀ hn', mul_comm]
    have := sum_le_length ((List.range nruns).map fun k : ℕ => Real.sqrt (variance rows k)) (maxVar rows nruns) (by
      intro x hx
      obtain ⟨k, hk, rfl⟩ := List.mem_map.1 hx
      rw [List.mem_range] at hk
      rw [Real.sqrt_le_left h2]
      unfold variance
      have hs := sum_le_length ((deviations rows k).map fun d => d ^ 2) (maxVar rows nruns ^ 2) (by
        intro y hy
        obtain ⟨d, hd, rfl⟩ := List.mem_map.1 hy
        obtain ⟨xs, hx, rfl⟩ := List.mem_map.1 hd
        have := h1 xs hx k hk
        rw [← sq_abs]
        exact pow_le_pow_left₀ (abs_nonneg _) this 2)
      rw [List.length_map] at hs
      have hl : (deviations rows k).length = rows.length := by unfold deviations; simp
      rw [hl] at hs
      by_cases h0 : rows.length = 0
      · rw [h0]; simp only [Nat.cast_zero, div_zero]; positivity
      · have : (0 : ℝ) < rows.length := by exact_mod_cast Nat.pos_of_ne_zero h0
        rw [div_le_iff₀ this]
        linarith)
    simpa using this

/-- **C111** The departures of the runs from their mean cancel, and with a single run sigma and maximum are 0. -/
theorem deviations_cancel (xs : List ℝ) (h : xs ≠ []) :
    (xs.map fun x => x - rowMean xs).sum = 0 := by
  have hl : (xs.length : ℝ) ≠ 0 := by simpa using h
  have : ∀ (l : List ℝ) (a : ℝ), (l.map fun x => x - a).sum = l.sum - (l.length : ℝ) * a := by
    intro l a
    induction l with
    | nil => simp
    | cons x l ih => simp only [List.map_cons, List.sum_cons, ih, List.length_cons]; push_cast; ring
  rw [this, rowMean, mul_div_cancel₀ _ hl, sub_self]

theorem single_run (rows : List (List ℝ)) (h : ∀ xs ∈ rows, xs.length = 1) :
    maxVar rows 1 = 0 ∧ rms rows 1 = 0 := by
  have hm : maxVar rows 1 = 0 := by
    rcases (maxVar_right rows 1).2.2 with h0 | ⟨xs, hx, k, hk, h0⟩
    · exact h0
    · rw [h0]
      obtain ⟨x, rfl⟩ := List.length_eq_one_iff.1 (h xs hx)
      obtain rfl : k = 0 := by omega
      simp [rowMean]
  obtain ⟨h1, h2⟩ := rms_le_max rows 1 one_pos
  exact ⟨hm, by linarith⟩

/-- **C111** A panel of the Monte Carlo figure: one row per month, the runs of the record of the month; the label
is computed from the months that have data. -/
theorem mcPanel_right (months : List ℤ) (recs : List Runs) (nruns : ℕ) (out) (h : mcPanel months recs nruns = .ok out) :
    List.Forall₂ (fun m o => (∀ r ∈ recs, r.month = m → o = some (r.time, r.vals)) ∧
      ((∀ r ∈ recs, r.month ≠ m) → o = none)) months out.1 ∧
    out.2.1 = rms (out.1.filterMap fun o => o.map (·.2)) nruns ∧
    out.2.2 = maxVar (out.1.filterMap fun o => o.map (·.2)) nruns := by
  unfold mcPanel at h
  rcases hm : months.mapM (row recs) with e | rows
  · rw [hm] at h; cases h
  rw [hm] at h
  injection h with h
  subst h
  refine ⟨?_, rfl, rfl⟩
  refine (mapM_ok_inv _ _ _ hm).imp fun m o hmo => ?_
  unfold row at hmo
  rcases hf : recs.filter fun r => r.month = m with _ | ⟨a, _ | ⟨b, l⟩⟩ <;> rw [hf] at hmo
  · injection hmo with hmo
    subst hmo
    refine ⟨fun r hr hm => ?_, fun _ => rfl⟩
    have : r ∈ recs.filter fun r => r.month = m := List.mem_filter.2 ⟨hr, by simpa using hm⟩
    rw [hf] at this; simp at this
  · injection hmo with hmo
    subst hmo
    refine ⟨fun r hr hm => ?_, fun hn => ?_⟩
    · have : r ∈ recs.filter fun r => r.month = m := List.mem_filter.2 ⟨hr, by simpa using hm⟩
      rw [hf] at this
      simp only [List.mem_singleton] at this
      subst this; rfl
    · have : a ∈ recs.filter fun r => r.month = m := by rw [hf]; simp
      rw [List.mem_filter] at this
      exact absurd (by simpa using this.2) (hn a this.1)
  · cases hmo

example : ∃ out, mcPanel [4, 5] [⟨4, 2002.3, [1, 3]⟩] 2 = .ok out := by
  unfold mcPanel
  rw [mapM_ok (row [⟨4, 2002.3, [1, 3]⟩]) (fun m => if m = 4 then some (2002.3, [1, 3]) else none) [4, 5] (by
    intro m hm
    simp only [List.mem_cons, List.not_mem_nil, or_false] at hm
    rcases hm with rfl | rfl <;> simp [row, List.filter])]
  exact ⟨_, rfl⟩

end Verif.GeoFigures
