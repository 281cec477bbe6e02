import Verif.Geocenter.AttrsProps
/-!
# C112: the attributes by name
-/
namespace Verif.Geocenter.Attrs
variable {A : Type}

/-- **C112** the dictionary of an object has time, month, coefficients, coordinates and the errors of both -/
theorem toDict_names (g : Map A) :
    toDict g "time" = g "time" ∧ toDict g "month" = g "month" ∧
    toDict g "C10" = g "C10" ∧ toDict g "C11" = g "C11" ∧ toDict g "S11" = g "S11" ∧
    toDict g "eC10" = g "eC10" ∧ toDict g "eC11" = g "eC11" ∧ toDict g "eS11" = g "eS11" ∧
    toDict g "X" = g "X" ∧ toDict g "Y" = g "Y" ∧ toDict g "Z" = g "Z" ∧
    toDict g "X_sigma" = g "X_sigma" ∧ toDict g "Y_sigma" = g "Y_sigma" ∧ toDict g "Z_sigma" = g "Z_sigma" ∧
    toDict g "filename" = none ∧ toDict g "radius" = none := by
  refine ⟨?_, ?_, ?_, ?_, ?_, ?_, ?_, ?_, ?_, ?_, ?_, ?_, ?_, ?_, ?_, ?_⟩ <;>
    first
    | exact (toDict_right g _).trans (if_pos (by decide))
    | exact (toDict_right g _).trans (if_neg (by decide))

/-- **C112** a copy has the errors of the coefficients too -/
theorem copy_errors (g : Map A) (a b c : A) (ha : g "eC10" = some (.arr a)) (hb : g "eC11" = some (.arr b))
    (hc : g "eS11" = some (.arr c)) :
    copy g "eC10" = some (.arr a) ∧ copy g "eC11" = some (.arr b) ∧ copy g "eS11" = some (.arr c) :=
  ⟨(copy_right g _).1 a (by decide) ha, (copy_right g _).1 b (by decide) hb, (copy_right g _).1 c (by decide) hc⟩

/-- **C112** an object starts without errors: `get` of them is an AttributeError, and so it stays in copies and dictionaries -/
theorem fresh_errors (k : String) (hk : k ∈ ["eC10", "eC11", "eS11", "X_sigma", "Y_sigma", "Z_sigma"]) :
    get (fresh A) k = none ∧ get (copy (fresh A)) k = none ∧ toDict (fresh A) k = none := by
  simp only [List.mem_cons, List.not_mem_nil, or_false] at hk
  rcases hk with rfl | rfl | rfl | rfl | rfl | rfl <;> exact ⟨rfl, rfl, rfl⟩

end Verif.Geocenter.Attrs
