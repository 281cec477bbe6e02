import Verif.Cmr.Props

/-!
# C104: queries for other levels than 2
-/
namespace Verif.Cmr

/-- **Level 1 and other levels**: a query for dealiasing data of level 1B selects the granules whose names begin with `AOD1B_`, any
other query of level 1 those whose names begin with `grace`, a query of another level everything. -/
theorem query_level1 (product : Option String) (level solution version : String) (n : List Char) :
    (level = "L1B" → product = some "AOD1B" → (glob (granules product level solution version) n = true ↔ "AOD1B_".toList <+: n)) ∧
    (level = "L1B" → product ≠ some "AOD1B" → (glob (granules product level solution version) n = true ↔ "grace".toList <+: n)) ∧
    (level = "L1A" → (glob (granules product level solution version) n = true ↔ "grace".toList <+: n)) ∧
    (level ≠ "L1A" → level ≠ "L1B" → level ≠ "L2" → glob (granules product level solution version) n = true) := by
  have e1 : ("AOD1B_*".toList : List Char) = "AOD1B_".toList ++ ['*'] := by decide
  have e2 : ("grace*".toList : List Char) = "grace".toList ++ ['*'] := by decide
  have g1 : glob ("AOD1B_*".toList) n = true ↔ "AOD1B_".toList <+: n := by
    rw [e1]; exact glob_prefix _ n (by constructor <;> decide)
  have g2 : glob ("grace*".toList) n = true ↔ "grace".toList <+: n := by
    rw [e2]; exact glob_prefix _ n (by constructor <;> decide)
  refine ⟨?_, ?_, ?_, ?_⟩
  · intro hl hp
    unfold granules
    rw [if_pos ⟨hl, hp⟩]
    exact g1
  · intro hl hp
    unfold granules
    rw [if_neg (fun h => hp h.2), if_pos (Or.inr hl)]
    exact g2
  · intro hl
    unfold granules
    rw [hl, if_neg (fun h => absurd h.1 (by decide)), if_pos (Or.inl rfl)]
    exact g2
  · intro h1 h2 h3
    unfold granules
    rw [if_neg (fun h => h2 h.1), if_neg (fun h => h.elim h1 h2), if_neg (fun h => h3 h.1), if_neg h3]
    exact glob_star n

end Verif.Cmr
