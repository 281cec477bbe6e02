import Verif.SpatialIO.Model

/-!
# C81: cells masked after reading, and the axes of an extent with a spacing
-/
namespace Verif.SpatialIO

theorem readLine_fill (cs : List String) (date : Bool) (a b : ℚ) (g g' : Grid) (line : List Char)
    (h : readLine cs date a b g line = .ok g') : g'.fill = g.fill := by
  unfold readLine at h
  simp only [bind, Except.bind, pure, Except.pure, throw, throwThe, MonadExceptOf.throw] at h
  repeat' split at h
  all_goals first
    | (injection h with h; subst h; rfl)
    | simp at h

theorem foldlM_fill (cs : List String) (date : Bool) (a b : ℚ) (ls : List (List Char)) (g g' : Grid)
    (h : ls.foldlM (readLine cs date a b) g = .ok g') : g'.fill = g.fill := by
  induction ls generalizing g with
  | nil => injection h with h; rw [h]
  | cons l ls ih =>
    rw [List.foldlM_cons] at h
    cases hl : readLine cs date a b g l with
    | error e => rw [hl] at h; exact absurd h (by simp [bind, Except.bind])
    | ok g1 =>
      rw [hl] at h
      rw [ih g1 h, readLine_fill cs date a b g g1 l hl]

/-- **C81** after reading a file into an object with a fill value a cell is either valid, and holds a number other than the
fill value, or masked, and holds the fill value -/
theorem fromAscii_masked (f : Option ℚ) (o : Opts) (file : List (List Char)) (g : Grid)
    (h : fromAscii (some f) o file = .ok g) (i j : ℕ) :
    (g.mask i j = true ∧ g.data i j = f) ∨ (g.mask i j = false ∧ ∃ x, g.data i j = some x ∧ f ≠ some x) := by
  unfold fromAscii at h
  simp only [bind, Except.bind, pure, Except.pure] at h
  split at h
  · exact absurd h (by simp)
  split at h
  · exact absurd h (by simp)
  rename_i g' hg'
  injection h with h
  subst h
  have hg : g'.fill = some f := foldlM_fill _ _ _ _ _ _ _ hg'
  simp only [updateMask, hg]
  by_cases hm : (g'.mask i j || isFill (some f) (g'.data i j) || (g'.data i j).isNone) = true
  · left
    exact ⟨hm, by rw [if_pos hm]⟩
  · right
    refine ⟨Bool.eq_false_iff.2 hm, ?_⟩
    rw [if_neg hm]
    simp only [Bool.or_eq_true, not_or, Option.isNone_iff_eq_none] at hm
    obtain ⟨x, hx⟩ := Option.ne_none_iff_exists'.1 hm.2
    refine ⟨x, hx, ?_⟩
    intro he
    apply hm.1.2
    rw [hx, he]
    simp [isFill]

/-- **C81** with an extent and a spacing the longitudes go from the first to the last edge with the spacing, both included -/
theorem dims_longitudes (x0 y0 y1 dlon dlat : ℚ) (n : ℕ) (hd : 0 < dlon) (hl : dlat ≠ 0) (o : Opts)
    (he : o.extent = some (x0, x0 + n * dlon, y0, y1)) (hs : o.spacing = some (dlon, dlat)) (hn : o.nlat = 0) :
    ∃ lat, dims o = .ok ((List.range (n + 1)).map fun i : ℕ => x0 + i * dlon, lat, dlon, dlat) := by
  unfold dims
  have h1 : (x0 + n * dlon + dlon - x0) / dlon = ((n + 1 : ℤ) : ℚ) := by
    push_cast; field_simp; ring
  rw [he, hs]
  simp only [hn, ne_eq, not_true_eq_false, false_and, if_false, hd.ne', hl, or_self, arange, h1, Int.ceil_intCast]
  exact ⟨_, rfl⟩

end Verif.SpatialIO
