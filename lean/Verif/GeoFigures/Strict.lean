import Verif.GeoFigures.Props
/-!
# C111: when a figure of ocean models is drawn
-/
namespace Verif.GeoFigures

theorem mapM_exists {α β : Type} (f : α → Except Err β) (l : List α) (h : ∀ a ∈ l, ∃ b, f a = .ok b) :
    ∃ r, l.mapM f = .ok r := by
  induction l with
  | nil => exact ⟨[], rfl⟩
  | cons a l ih =>
    obtain ⟨b, hb⟩ := h a (by simp)
    obtain ⟨r, hr⟩ := ih fun x hx => h x (by simp [hx])
    refine ⟨b :: r, ?_⟩
    rw [List.mapM_cons, hb, hr]
    rfl

/-- **C111** five ocean models (or less) are drawn, whatever they are, when their files are there and can be drawn and the file of the
standard model has the dates of the gap -/
theorem oceanModels_drawn (read : String → Except Err (List Rec)) (radius : ℝ) (proc drel : String)
    (models : List String) (start stop : ℤ) (missing : List ℤ) (hl : models.length ≤ 5)
    (hm : ∀ m ∈ models, ∃ recs p, read (modelFile proc drel m) = .ok recs ∧
      draw radius start (monthsOf start stop missing) recs = .ok p)
    (hs : ∃ recs g, read (modelFile proc drel (modelOf drel)) = .ok recs ∧ span recs = .ok g) :
    ∃ F, oceanModels read radius proc drel models start stop missing = .ok F := by
  obtain ⟨ls, h1⟩ := mapM_exists (modelLine read radius proc drel start (monthsOf start stop missing)) models.zipIdx (by
    rintro ⟨m, k⟩ hk
    obtain ⟨hk1, -, hk2⟩ := List.mem_zipIdx hk
    have hmem : m ∈ models := by rw [hk2]; exact List.getElem_mem _
    obtain ⟨recs, p, hr, hp⟩ := hm m hmem
    have hk5 : k < modelColors.length := by
      have := (List.mem_zipIdx hk).2.1
      have : k < 5 := by omega
      exact this
    refine ⟨(String.ofList (m.toList.map fun c => if c = '_' then '-' else c), modelColors[k], p), ?_⟩
    unfold modelLine
    simp only [hr, bind, Except.bind, hp, List.getElem?_eq_getElem hk5, colorOrKey])
  obtain ⟨recs, g, hr, hg⟩ := hs
  refine ⟨⟨ls, g⟩, ?_⟩
  unfold oceanModels
  simp only [h1, hr, hg, bind, Except.bind]

end Verif.GeoFigures
