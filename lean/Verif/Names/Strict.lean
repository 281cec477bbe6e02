import Verif.Names.Model

/-!
# C80: the order of the dates of files

`reduce_by_date` sorts the tuples of parts of the names: the first year counts first, then the first day, the last year and
the last day.
-/
namespace Verif.Names

/-- **C80** the order of two dates: the first year, then the first day, then the last year, then the last day -/
theorem span_order (sy sd ey ed sy' sd' ey' ed' : Name) :
    mkSpan sy sd ey ed < mkSpan sy' sd' ey' ed' ↔
      sy < sy' ∨ (sy = sy' ∧ (sd < sd' ∨ (sd = sd' ∧ (ey < ey' ∨ (ey = ey' ∧ ed < ed'))))) := by
  unfold mkSpan
  simp only [Prod.Lex.toLex_lt_toLex, EmbeddingLike.apply_eq_iff_eq, Prod.mk.injEq]
  tauto

/-- the last day of 2002 comes before the first day of 2003 -/
example : mkSpan "2002".toList "365".toList "2003".toList "031".toList <
    mkSpan "2003".toList "001".toList "2003".toList "031".toList := by
  rw [span_order]; left; decide

end Verif.Names
