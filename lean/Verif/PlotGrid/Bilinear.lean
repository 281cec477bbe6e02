import Verif.PlotGrid.Props
import Mathlib.Tactic.Positivity
/-!
# C114: the pixels of a map (bilinear interpolation)
-/
namespace Verif.PlotGrid
open Verif.Spatial
open Verif.Tools (shiftGrid argminAbs argminAbs_spec startIdx twoSlices assignSlice twoSlices_eq mapM_some)

theorem getD_lt (ax : List ℚ) (hp : ax.Pairwise (· < ·)) (i j : ℕ) (hij : i < j) (hj : j < ax.length) :
    ax.getD i 0 < ax.getD j 0 := by
  rw [List.getD_eq_getElem?_getD, List.getD_eq_getElem?_getD, List.getElem?_eq_getElem (by omega),
    List.getElem?_eq_getElem hj]
  exact List.pairwise_iff_getElem.1 hp i j (by omega) hj hij

theorem headD_getD (ax : List ℚ) : ax.headD 0 = ax.getD 0 0 := by cases ax <;> rfl

theorem getLastD_getD (ax : List ℚ) : ax.getLastD 0 = ax.getD (ax.length - 1) 0 := by
  rw [List.getLastD_eq_getLast?, List.getLast?_eq_getElem?, List.getD_eq_getElem?_getD]

theorem splineAxis_iff (ax : List ℚ) : splineAxis ax = true ↔ 2 ≤ ax.length ∧ ax.Pairwise (· < ·) := by
  simp [splineAxis]

/-- the bracket lies in the axis and the position is between 0 and 1 -/
theorem bracket_spec (ax : List ℚ) (o : ℚ) (h : splineAxis ax = true) :
    (bracket ax o).1 + 1 < ax.length ∧ 0 ≤ (bracket ax o).2 ∧ (bracket ax o).2 ≤ 1 := by
  obtain ⟨h2, hp⟩ := (splineAxis_iff ax).1 h
  set o' := max (ax.headD 0) (min o (ax.getLastD 0)) with ho
  set a := Nat.findGreatest (fun k => ax.getD k 0 ≤ o') (ax.length - 2) with ha
  have hb : bracket ax o = (a, (o' - ax.getD a 0) / (ax.getD (a + 1) 0 - ax.getD a 0)) := rfl
  have hle : a ≤ ax.length - 2 := Nat.findGreatest_le _
  have hlt := getD_lt ax hp a (a + 1) (by omega) (by omega)
  have h0 : ax.getD 0 0 ≤ o' := by rw [← headD_getD]; exact le_max_left _ _
  have hlo : ax.headD 0 ≤ ax.getLastD 0 := by
    rw [headD_getD, getLastD_getD]
    exact (getD_lt ax hp 0 (ax.length - 1) (by omega) (by omega)).le
  have hoU : o' ≤ ax.getLastD 0 := max_le hlo (min_le_right _ _)
  have hal : ax.getD a 0 ≤ o' := by
    have := Nat.findGreatest_spec (P := fun k => ax.getD k 0 ≤ o') (m := 0) (n := ax.length - 2) (by omega) h0
    exact this
  have hau : o' ≤ ax.getD (a + 1) 0 := by
    by_cases hc : a + 1 ≤ ax.length - 2
    · have := Nat.findGreatest_is_greatest (P := fun k => ax.getD k 0 ≤ o') (n := ax.length - 2) (k := a + 1) (by omega) hc
      exact (not_le.1 this).le
    · have : a + 1 = ax.length - 1 := by omega
      rw [this, ← getLastD_getD]; exact hoU
  rw [hb]
  refine ⟨by simp only; omega, div_nonneg (by linarith) (by linarith), ?_⟩
  rw [div_le_one (by linarith)]; linarith

/-- at a node the bracket is the node -/
theorem bracket_node (ax : List ℚ) (k : ℕ) (hk : k < ax.length) (h : splineAxis ax = true) :
    bracket ax (ax.getD k 0) = if k + 1 < ax.length then (k, 0) else (k - 1, 1) := by
  obtain ⟨h2, hp⟩ := (splineAxis_iff ax).1 h
  have hmono : ∀ i j, i ≤ j → j < ax.length → ax.getD i 0 ≤ ax.getD j 0 := by
    intro i j hij hj
    rcases Nat.lt_or_eq_of_le hij with h1 | rfl
    · exact (getD_lt ax hp i j h1 hj).le
    · exact le_refl _
  have ho : max (ax.headD 0) (min (ax.getD k 0) (ax.getLastD 0)) = ax.getD k 0 := by
    rw [headD_getD, getLastD_getD, min_eq_left (hmono k (ax.length - 1) (by omega) (by omega)),
      max_eq_right (hmono 0 k (by omega) hk)]
  have hb : bracket ax (ax.getD k 0) = (Nat.findGreatest (fun i => ax.getD i 0 ≤ ax.getD k 0) (ax.length - 2),
      (ax.getD k 0 - ax.getD (Nat.findGreatest (fun i => ax.getD i 0 ≤ ax.getD k 0) (ax.length - 2)) 0) /
      (ax.getD (Nat.findGreatest (fun i => ax.getD i 0 ≤ ax.getD k 0) (ax.length - 2) + 1) 0 -
        ax.getD (Nat.findGreatest (fun i => ax.getD i 0 ≤ ax.getD k 0) (ax.length - 2)) 0)) := by
    unfold bracket
    simp only [ho]
  split_ifs with hc
  · have hf : Nat.findGreatest (fun i => ax.getD i 0 ≤ ax.getD k 0) (ax.length - 2) = k := by
      rw [Nat.findGreatest_eq_iff]
      refine ⟨by omega, fun _ => le_refl _, fun n hn hn2 => ?_⟩
      exact not_le.2 (getD_lt ax hp k n hn (by omega))
    rw [hb, hf]; simp
  · have hf : Nat.findGreatest (fun i => ax.getD i 0 ≤ ax.getD k 0) (ax.length - 2) = k - 1 := by
      rw [Nat.findGreatest_eq_iff]
      refine ⟨by omega, fun _ => hmono _ _ (by omega) hk, fun n hn hn2 => by omega⟩
    rw [hb, hf]
    have hlt := getD_lt ax hp (k - 1) k (by omega) hk
    have : k - 1 + 1 = k := by omega
    rw [this, div_self (by linarith)]

/-- **C114** at the points of the grid the bilinear image is the value of the grid -/
theorem bilinear_node (d : ℕ → ℕ → ℚ) (lon lat : List ℚ) (i j : ℕ) (hi : i < lat.length) (hj : j < lon.length)
    (h1 : splineAxis lon = true) (h2 : splineAxis lat = true) :
    bilinear d lon lat (lon.getD j 0) (lat.getD i 0) = d i j := by
  have hl := ((splineAxis_iff lon).1 h1).1
  have hl2 := ((splineAxis_iff lat).1 h2).1
  unfold bilinear
  rw [bracket_node lon j hj h1, bracket_node lat i hi h2]
  by_cases hc : j + 1 < lon.length <;> by_cases hd : i + 1 < lat.length <;> simp only [hc, hd, if_true, if_false]
  · ring
  · have : i - 1 + 1 = i := by omega
    rw [this]; ring
  · have : j - 1 + 1 = j := by omega
    rw [this]; ring
  · have e1 : i - 1 + 1 = i := by omega
    have e2 : j - 1 + 1 = j := by omega
    rw [e1, e2]; ring

/-- where the columns of a grid go -/
def colOf (interval : ℤ) (dlon : ℚ) (lon : List ℚ) (k : ℕ) : ℕ :=
  if interval = 1 ∧ beyond lon then source lon.length (argminAbs lon 180) (startIdx lon 360) k
  else if interval = 2 ∧ beyond lon then source lon.length (argminAbs lon (180 + dlon)) (startIdx lon 360) k
  else k

theorem startIdx_le (lon : List ℚ) : startIdx lon 360 ≤ 1 := by unfold startIdx; split_ifs <;> omega

/-- what `shift_grid` returns if it does not raise -/
theorem shift_ok {A : Type} (t : ℚ) (lon : List ℚ) (d d' : List (List A)) (l : List ℚ) (hd : ∀ r ∈ d, r.length = lon.length)
    (h : shiftGrid t d lon 360 = some (d', l)) :
    0 < argminAbs lon t ∧ argminAbs lon t < lon.length ∧ l.length = lon.length ∧
      d' = d.map fun r => r.drop (argminAbs lon t) ++ (r.drop (startIdx lon 360)).take (argminAbs lon t) := by
  have hs1 := startIdx_le lon
  have hne : lon ≠ [] := by
    intro h0; subst h0; simp [shiftGrid] at h
  have hlen : 0 < lon.length := List.length_pos_iff.2 hne
  obtain ⟨hlt, _, _⟩ := argminAbs_spec lon t hne
  have hi0 : 0 < argminAbs lon t := by
    rcases Nat.eq_zero_or_pos (argminAbs lon t) with h0 | h0
    · exfalso
      simp only [shiftGrid, if_neg hne, h0, twoSlices, if_true] at h
      rcases lon with _ | ⟨a, _ | ⟨b, r⟩⟩
      · simp at hne
      · simp [assignSlice] at h
      · simp [assignSlice] at h
    · exact h0
  have hl := twoSlices_eq lon.length (argminAbs lon t) (startIdx lon 360) lon (· - 360) hi0 hlt hs1 rfl
  have hrow : ∀ r ∈ d, twoSlices r.length (argminAbs lon t) (r.drop (argminAbs lon t))
      ((r.drop (startIdx lon 360)).take (argminAbs lon t)) =
      some (r.drop (argminAbs lon t) ++ (r.drop (startIdx lon 360)).take (argminAbs lon t)) := by
    intro r hr
    have := twoSlices_eq r.length (argminAbs lon t) (startIdx lon 360) r id hi0 (by rw [hd r hr]; exact hlt) hs1 rfl
    simpa using this
  simp only [shiftGrid, if_neg hne, hl, mapM_some _ _ d hrow, Option.some.injEq, Prod.mk.injEq] at h
  refine ⟨hi0, hlt, ?_, h.1.symm⟩
  rw [← h.2]
  simp only [List.length_append, List.length_map, List.length_drop, List.length_take]
  omega

/-- the arrays after the shift: every column is a column of the grid -/
theorem shifted_ok {A : Type} (interval : ℤ) (dlon : ℚ) (o : Sp ℚ) (f : Idx → A) (z : A) (d : List (List A)) (l : List ℚ)
    (hf : Fits o) (h : shifted interval dlon o.lon (rows o f) = .ok (d, l)) :
    l.length = o.lon.length ∧ d.length = o.shape 0 ∧ (∀ k < o.lon.length, colOf interval dlon o.lon k < o.shape 1) ∧
      (∀ i k, i < o.shape 0 → k < o.lon.length → at_ d z i k = f (cell i (colOf interval dlon o.lon k))) ∧
      ∀ r ∈ d, r.length = o.lon.length := by
  have hd : ∀ r ∈ rows o f, r.length = o.lon.length := fun r hr => by rw [rows_row o f r hr, hf.2]
  have hs1 := startIdx_le o.lon
  -- the shifted case
  have key : ∀ t, shiftGrid t (rows o f) o.lon 360 = some (d, l) →
      l.length = o.lon.length ∧ d.length = o.shape 0 ∧
      (∀ k < o.lon.length, source o.lon.length (argminAbs o.lon t) (startIdx o.lon 360) k < o.shape 1) ∧
      (∀ i k, i < o.shape 0 → k < o.lon.length →
        at_ d z i k = f (cell i (source o.lon.length (argminAbs o.lon t) (startIdx o.lon 360) k))) ∧
      ∀ r ∈ d, r.length = o.lon.length := by
    intro t ht
    obtain ⟨hi0, hlt, hll, hde⟩ := shift_ok t o.lon (rows o f) d l hd ht
    refine ⟨hll, by rw [hde, List.length_map, rows_length], fun k hk => ?_, fun i k hi hk => ?_, ?_⟩
    · rw [hf.2]; exact source_lt _ _ _ _ hlt hs1 hk hi0
    · have hsl := source_lt _ _ _ _ hlt hs1 hk hi0
      have hrow : (rows o f)[i]? = some ((List.range (o.shape 1)).map fun j : ℕ => f (cell i j)) := by
        unfold rows; rw [List.getElem?_map, List.getElem?_range hi]; rfl
      unfold at_
      rw [hde, List.getD_eq_getElem?_getD (l := List.map _ (rows o f)), List.getElem?_map, hrow]
      simp only [Option.map_some, Option.getD_some]
      rw [List.getD_eq_getElem?_getD, shift_get o.lon.length _ _ _ (by simp [hf.2]) hlt k hk, List.getElem?_map,
        List.getElem?_range (by rw [hf.2]; exact hsl)]
      rfl
    · intro r hr
      rw [hde] at hr
      obtain ⟨q, hq, rfl⟩ := List.mem_map.1 hr
      simp only [List.length_append, List.length_drop, List.length_take, hd q hq]
      omega
  unfold shifted at h
  unfold colOf
  by_cases h1 : interval = 1 ∧ beyond o.lon
  · rw [if_pos h1] at h
    cases hg : shiftGrid 180 (rows o f) o.lon 360 with
    | none => rw [hg] at h; simp at h
    | some r =>
      rw [hg] at h
      simp only [Except.ok.injEq] at h
      subst h
      simp only [if_pos h1]
      exact key 180 hg
  · rw [if_neg h1] at h
    by_cases h2 : interval = 2 ∧ beyond o.lon
    · rw [if_pos h2] at h
      cases hg : shiftGrid (180 + dlon) (rows o f) o.lon 360 with
      | none => rw [hg] at h; simp at h
      | some r =>
        rw [hg] at h
        simp only [Except.ok.injEq] at h
        subst h
        simp only [if_neg h1, if_pos h2]
        exact key (180 + dlon) hg
    · rw [if_neg h2] at h
      simp only [Except.ok.injEq, Prod.mk.injEq] at h
      obtain ⟨rfl, rfl⟩ := h
      simp only [if_neg h1, if_neg h2]
      exact ⟨trivial, rows_length o f, fun k hk => by rw [hf.2]; exact hk,
        fun i k hi hk => rows_get o f z i k hi (by rw [hf.2]; exact hk), hd⟩

/-- the longitudes after the shift do not depend on the array -/
theorem shifted_lon {A B : Type} (interval : ℤ) (dlon : ℚ) (lon : List ℚ) (d : List (List A)) (e : List (List B))
    (d' : List (List A)) (e' : List (List B)) (l l' : List ℚ)
    (h : shifted interval dlon lon d = .ok (d', l)) (h' : shifted interval dlon lon e = .ok (e', l')) : l = l' := by
  have key : ∀ t, (∀ r r', shiftGrid t d lon 360 = some r → shiftGrid t e lon 360 = some r' → r.2 = r'.2) := by
    intro t r r' h1 h2
    unfold shiftGrid at h1 h2
    by_cases hne : lon = []
    · simp [hne] at h1
    · simp only [if_neg hne] at h1 h2
      cases hg : twoSlices lon.length (argminAbs lon t) (List.map (fun x => x - 360) (List.drop (argminAbs lon t) lon))
        (List.take (argminAbs lon t) (List.drop (startIdx lon 360) lon)) with
      | none => rw [hg] at h1; simp at h1
      | some q =>
        rw [hg] at h1 h2
        simp only at h1 h2
        split at h1
        · simp at h1
        · split at h2
          · simp at h2
          · simp only [Option.some.injEq] at h1 h2
            rw [← h1, ← h2]
  unfold shifted at h h'
  by_cases h1 : interval = 1 ∧ beyond lon
  · rw [if_pos h1] at h h'
    cases hg : shiftGrid 180 d lon 360 with
    | none => rw [hg] at h; simp at h
    | some r =>
      cases hg' : shiftGrid 180 e lon 360 with
      | none => rw [hg'] at h'; simp at h'
      | some r' =>
        rw [hg] at h; rw [hg'] at h'
        simp only [Except.ok.injEq] at h h'
        have := key 180 r r' hg hg'
        rw [h, h'] at this; exact this
  · rw [if_neg h1] at h h'
    by_cases h2 : interval = 2 ∧ beyond lon
    · rw [if_pos h2] at h h'
      cases hg : shiftGrid (180 + dlon) d lon 360 with
      | none => rw [hg] at h; simp at h
      | some r =>
        cases hg' : shiftGrid (180 + dlon) e lon 360 with
        | none => rw [hg'] at h'; simp at h'
        | some r' =>
          rw [hg] at h; rw [hg'] at h'
          simp only [Except.ok.injEq] at h h'
          have := key (180 + dlon) r r' hg hg'
          rw [h, h'] at this; exact this
    · rw [if_neg h2] at h h'
      simp only [Except.ok.injEq, Prod.mk.injEq] at h h'
      rw [← h.2, ← h'.2]

/-- **C114** bilinear interpolation: a pixel that is not masked is a mean, with positive weights, of values of cells that are not
masked; fill values never enter the image -/
theorem bilinear_valid (interval : ℤ) (dlon : ℚ) (o : Sp ℚ) (x y v : ℚ) (hf : Fits o)
    (h : image interval "bilinear" dlon o x y = .ok (some (some v, false))) : MeanOfValid o v := by
  unfold image at h
  cases hd : shifted interval dlon o.lon (rows o o.data) with
  | error e => rw [hd] at h; simp at h
  | ok p =>
    obtain ⟨d, lon⟩ := p
    rw [hd] at h
    cases hm : shifted interval dlon o.lon (rows o o.mask) with
    | error e => rw [hm] at h; simp at h
    | ok q =>
      obtain ⟨m, lon'⟩ := q
      rw [hm] at h
      have hll : lon = lon' := shifted_lon interval dlon o.lon _ _ _ _ _ _ hd hm
      subst hll
      obtain ⟨hlen, hdl, hcol, hget, hrl⟩ := shifted_ok interval dlon o o.data none d lon hf hd
      obtain ⟨_, _, _, hgetm, _⟩ := shifted_ok interval dlon o o.mask false m lon hf hm
      have hord : order "bilinear" = some 1 := by decide
      simp only [hord] at h
      by_cases hax : (splineAxis lon && splineAxis o.lat) = true
      swap
      · rw [if_neg hax] at h; simp at h
      rw [if_pos hax] at h
      simp only [Except.ok.injEq, Option.some.injEq, Prod.mk.injEq] at h
      obtain ⟨hv, hmk⟩ := h
      simp only [Bool.and_eq_true] at hax
      obtain ⟨hax1, hax2⟩ := hax
      obtain ⟨hj1, hu0, hu1⟩ := bracket_spec lon x hax1
      obtain ⟨hi1, hv0, hv1⟩ := bracket_spec o.lat y hax2
      by_cases hall : (d.all fun r => r.all Option.isSome) = true
      swap
      · rw [if_neg hall] at hv; simp at hv
      rw [if_pos hall] at hv
      simp only [Option.some.injEq] at hv
      rw [decide_eq_false_iff_not, not_not] at hmk
      -- values of the four corners
      have hsome : ∀ i k, i < o.shape 0 → k < o.lon.length →
          o.data (cell i (colOf interval dlon o.lon k)) = some ((at_ d none i k).getD 0) := by
        intro i k hi hk
        rw [← hget i k hi hk]
        have hr : d[i]? = some (d[i]'(by omega)) := List.getElem?_eq_getElem (by omega)
        have hrm : d[i]'(by omega) ∈ d := List.getElem_mem _
        have hk' : k < (d[i]'(by omega)).length := by rw [hrl _ hrm]; exact hk
        have hc : at_ d none i k = (d[i]'(by omega))[k] := by
          unfold at_
          rw [List.getD_eq_getElem?_getD (l := d), hr, Option.getD_some, List.getD_eq_getElem?_getD, List.getElem?_eq_getElem hk']
          rfl
        have := List.all_eq_true.1 (List.all_eq_true.1 hall _ hrm) _ (List.getElem_mem hk')
        rw [hc]
        obtain ⟨w, hw⟩ := Option.isSome_iff_exists.1 this
        rw [hw]; rfl
      unfold bilinear at hv hmk
      generalize hbx : bracket lon x = bx at hv hmk hj1 hu0 hu1
      generalize hby : bracket o.lat y = bY at hv hmk hi1 hv0 hv1
      obtain ⟨j, u⟩ := bx
      obtain ⟨i, w⟩ := bY
      simp only at hv hmk hj1 hu0 hu1 hi1 hv0 hv1
      have hi0 : i < o.shape 0 := by rw [hf.1]; omega
      have hi0' : i + 1 < o.shape 0 := by rw [hf.1]; exact hi1
      have hj0 : j < o.lon.length := by omega
      have hj0' : j + 1 < o.lon.length := by omega
      -- weights
      set c := colOf interval dlon o.lon with hcdef
      set D := fun i k => (at_ d none i k).getD 0 with hD
      have hM : ∀ i k, i < o.shape 0 → k < o.lon.length → at_ m false i k = o.mask (cell i (c k)) := hgetm
      let L : List (ℚ × ℕ × ℕ × ℚ) := [((1 - w) * (1 - u), i, c j, D i j), ((1 - w) * u, i, c (j + 1), D i (j + 1)),
        (w * (1 - u), i + 1, c j, D (i + 1) j), (w * u, i + 1, c (j + 1), D (i + 1) (j + 1))]
      have hw00 : 0 ≤ (1 - w) * (1 - u) := mul_nonneg (by linarith) (by linarith)
      have hw01 : 0 ≤ (1 - w) * u := mul_nonneg (by linarith) hu0
      have hw10 : 0 ≤ w * (1 - u) := mul_nonneg hv0 (by linarith)
      have hw11 : 0 ≤ w * u := mul_nonneg hv0 hu0
      -- masks
      set b00 : ℚ := if at_ m false i j = true then 1 else 0 with hb00
      set b01 : ℚ := if at_ m false i (j + 1) = true then 1 else 0 with hb01
      set b10 : ℚ := if at_ m false (i + 1) j = true then 1 else 0 with hb10
      set b11 : ℚ := if at_ m false (i + 1) (j + 1) = true then 1 else 0 with hb11
      have nb : ∀ (b : Bool), (0 : ℚ) ≤ (if b = true then 1 else 0) := by intro b; cases b <;> norm_num
      have hsum : (1 - w) * (1 - u) * b00 + (1 - w) * u * b01 + w * (1 - u) * b10 + w * u * b11 = 0 := by
        rw [← hmk]; ring
      have p00 := mul_nonneg hw00 (nb (at_ m false i j))
      have p01 := mul_nonneg hw01 (nb (at_ m false i (j + 1)))
      have p10 := mul_nonneg hw10 (nb (at_ m false (i + 1) j))
      have p11 := mul_nonneg hw11 (nb (at_ m false (i + 1) (j + 1)))
      rw [← hb00] at p00; rw [← hb01] at p01; rw [← hb10] at p10; rw [← hb11] at p11
      have q : ∀ (W : ℚ) (b : Bool), 0 < W → W * (if b = true then 1 else 0) ≤ 0 → b = false := by
        intro W b hW hb
        cases b
        · rfl
        · simp at hb; linarith
      refine ⟨L.filter fun p => 0 < p.1, ?_, ?_, ?_⟩
      · intro p hp
        rw [List.mem_filter] at hp
        obtain ⟨hpL, hpos⟩ := hp
        have hpos := of_decide_eq_true hpos
        simp only [L, List.mem_cons, List.not_mem_nil, or_false] at hpL
        rcases hpL with rfl | rfl | rfl | rfl
        · refine ⟨hpos, hi0, hcol j hj0, ?_, hsome i j hi0 hj0⟩
          simp only
          rw [← hM i j hi0 hj0]; exact q _ _ hpos (by rw [← hb00]; linarith)
        · refine ⟨hpos, hi0, hcol (j + 1) hj0', ?_, hsome i (j + 1) hi0 hj0'⟩
          simp only
          rw [← hM i (j + 1) hi0 hj0']; exact q _ _ hpos (by rw [← hb01]; linarith)
        · refine ⟨hpos, hi0', hcol j hj0, ?_, hsome (i + 1) j hi0' hj0⟩
          simp only
          rw [← hM (i + 1) j hi0' hj0]; exact q _ _ hpos (by rw [← hb10]; linarith)
        · refine ⟨hpos, hi0', hcol (j + 1) hj0', ?_, hsome (i + 1) (j + 1) hi0' hj0'⟩
          simp only
          rw [← hM (i + 1) (j + 1) hi0' hj0']; exact q _ _ hpos (by rw [← hb11]; linarith)
      · have key : ∀ (l : List (ℚ × ℕ × ℕ × ℚ)), (∀ p ∈ l, 0 ≤ p.1) →
            ((l.filter fun p => 0 < p.1).map fun p => p.1).sum = (l.map fun p => p.1).sum := by
          intro l
          induction l with
          | nil => intro; rfl
          | cons p l ih =>
            intro hp
            have := ih fun q hq => hp q (by simp [hq])
            by_cases h0 : 0 < p.1
            · rw [List.filter_cons_of_pos (by simpa using h0)]; simp [this]
            · rw [List.filter_cons_of_neg (by simpa using h0)]
              have : p.1 = 0 := le_antisymm (not_lt.1 h0) (hp p (by simp))
              simp only [List.map_cons, List.sum_cons, this, zero_add]; assumption
        rw [key]
        · simp only [L, List.map_cons, List.map_nil, List.sum_cons, List.sum_nil]; ring
        · intro p hp
          simp only [L, List.mem_cons, List.not_mem_nil, or_false] at hp
          rcases hp with rfl | rfl | rfl | rfl <;> assumption
      · have key : ∀ (l : List (ℚ × ℕ × ℕ × ℚ)), (∀ p ∈ l, 0 ≤ p.1) →
            ((l.filter fun p => 0 < p.1).map fun p => p.1 * p.2.2.2).sum = (l.map fun p => p.1 * p.2.2.2).sum := by
          intro l
          induction l with
          | nil => intro; rfl
          | cons p l ih =>
            intro hp
            have := ih fun q hq => hp q (by simp [hq])
            by_cases h0 : 0 < p.1
            · rw [List.filter_cons_of_pos (by simpa using h0)]; simp [this]
            · rw [List.filter_cons_of_neg (by simpa using h0)]
              have h00 : p.1 = 0 := le_antisymm (not_lt.1 h0) (hp p (by simp))
              simp only [List.map_cons, List.sum_cons, h00, zero_mul, zero_add]; assumption
        rw [key]
        · simp only [L, List.map_cons, List.map_nil, List.sum_cons, List.sum_nil]
          rw [← hv]; simp only [hD]; ring
        · intro p hp
          simp only [L, List.mem_cons, List.not_mem_nil, or_false] at hp
          rcases hp with rfl | rfl | rfl | rfl <;> assumption

/-- **C114** in particular the image never leaves the range of the valid values -/
theorem bilinear_range (interval : ℤ) (dlon : ℚ) (o : Sp ℚ) (x y v a b : ℚ) (hf : Fits o)
    (hab : ∀ i j w, i < o.shape 0 → j < o.shape 1 → o.mask (cell i j) = false → o.data (cell i j) = some w → a ≤ w ∧ w ≤ b)
    (h : image interval "bilinear" dlon o x y = .ok (some (some v, false))) : a ≤ v ∧ v ≤ b := by
  obtain ⟨l, hl, h1, h2⟩ := bilinear_valid interval dlon o x y v hf h
  have key : ∀ l : List (ℚ × ℕ × ℕ × ℚ), (∀ p ∈ l, 0 < p.1 ∧ a ≤ p.2.2.2 ∧ p.2.2.2 ≤ b) →
      a * (l.map fun p => p.1).sum ≤ (l.map fun p => p.1 * p.2.2.2).sum ∧
      (l.map fun p => p.1 * p.2.2.2).sum ≤ b * (l.map fun p => p.1).sum := by
    intro l
    induction l with
    | nil => intro; simp
    | cons p l ih =>
      intro hp
      obtain ⟨ih1, ih2⟩ := ih fun q hq => hp q (by simp [hq])
      obtain ⟨p0, p1, p2⟩ := hp p (by simp)
      simp only [List.map_cons, List.sum_cons]
      constructor
      · nlinarith
      · nlinarith
  have := key l fun p hp => by
    obtain ⟨q1, q2, q3, q4, q5⟩ := hl p hp
    exact ⟨q1, hab _ _ _ q2 q3 q4 q5⟩
  rw [h1, ← h2] at this
  constructor <;> linarith [this.1, this.2]

/-- equality of results can be decided for a given pixel -/
def isPixel (r : Except Err (Option Pixel)) (p : Pixel) : Bool :=
  match r with
  | .ok q => decide (q = some p)
  | .error _ => false

theorem isPixel_iff (r : Except Err (Option Pixel)) (p : Pixel) : isPixel r p = true ↔ r = .ok (some p) := by
  cases r <;> simp [isPixel]

example : image 2 "bilinear" 90 (exGrid [45, 135, 225, 315]) (-45) (-45) = .ok (some (some 3, false)) :=
  (isPixel_iff _ _).1 (by decide +kernel)
example : image 2 "bilinear" 90 (exGrid [45, 135, 225, 315]) (-90) (-45) = .ok (some (some (5 / 2), false)) :=
  (isPixel_iff _ _).1 (by decide +kernel)
/-- next to the masked cell the pixel is masked -/
example : image 2 "bilinear" 90 (exGrid [45, 135, 225, 315]) (-90) (-44) = .ok (some (some (5 / 2 + 1 / 9), true)) :=
  (isPixel_iff _ _).1 (by decide +kernel)

/-- **C114** with bilinear interpolation (the default) latitudes that decrease are refused; the same grid can be drawn with a
negative spacing, which turns it over -/
theorem bilinear_decreasing (interval : ℤ) (dlon : ℚ) (o : Sp ℚ) (x y : ℚ) (d : List (List (Val ℚ))) (m : List (List Bool))
    (l l' : List ℚ) (hd : shifted interval dlon o.lon (rows o o.data) = .ok (d, l))
    (hm : shifted interval dlon o.lon (rows o o.mask) = .ok (m, l')) (i : ℕ) (a b : ℚ)
    (h1 : o.lat[i]? = some a) (h2 : o.lat[i + 1]? = some b) (hba : b ≤ a) :
    image interval "bilinear" dlon o x y = .error .value := by
  have hax : splineAxis o.lat = false := by
    cases hc : splineAxis o.lat with
    | false => rfl
    | true =>
      exfalso
      obtain ⟨_, hp⟩ := (splineAxis_iff o.lat).1 hc
      obtain ⟨hb, hb'⟩ := List.getElem?_eq_some_iff.1 h2
      obtain ⟨ha, ha'⟩ := List.getElem?_eq_some_iff.1 h1
      have := List.pairwise_iff_getElem.1 hp i (i + 1) ha hb (by omega)
      rw [ha', hb'] at this
      linarith
  have hord : order "bilinear" = some 1 := by decide
  unfold image
  rw [hd, hm]
  simp only [hord, hax, Bool.and_false, Bool.false_eq_true, if_false]

end Verif.PlotGrid
