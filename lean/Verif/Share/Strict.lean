import Verif.Share.Props

/-!
# C88: `expand_dims` and `squeeze`
-/
namespace Verif.Share
open Verif.Harmonics
variable {K : Type} [Field K]

/-- **C88** `expand_dims` makes a single field a series of one date, keeps a series, and `squeeze` undoes it -/
theorem expand_squeeze (v : VState K) (i : ℕ) (h : Harm K) (hi : v.objs[i]? = some h) :
    vrun v [.expandDims i] = .ok { v with objs := v.objs.set i { h with nt := some (h.nt.getD 1) } } ∧
    (h.nt = none → vrun v [.expandDims i, .squeeze i] = .ok v) := by
  have hlt : i < v.objs.length := (List.getElem?_eq_some_iff.1 hi).1
  have hn : expandNt h.nt = some (h.nt.getD 1) := by cases h.nt <;> rfl
  have h1 : vstep v (.expandDims i) = .ok { v with objs := v.objs.set i { h with nt := some (h.nt.getD 1) } } := by
    simp only [vstep, getObj, hi, bind, Except.bind, VState.put, Except.map, hn]
  refine ⟨?_, ?_⟩
  · simp only [vrun, h1, bind, Except.bind]
  · intro hnone
    simp only [vrun, h1, bind, Except.bind]
    simp only [vstep, getObj, bind, Except.bind, VState.put, Except.map]
    rw [List.getElem?_set_self hlt]
    have hs : squeeze { h with nt := some (h.nt.getD 1) } = h := by
      rw [hnone]
      obtain ⟨a, b, c, d, e, f, g⟩ := h
      cases hnone
      rfl
    simp only [hs, List.set_set]
    have : v.objs.set i h = v.objs := by
      have := (List.getElem?_eq_some_iff.1 hi).2
      rw [← this]; exact List.set_getElem_self hlt
    rw [this]

end Verif.Share
