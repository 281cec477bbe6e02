import Verif.GeoFile.Items

/-!
# Lemmas: no hash in the header
-/
namespace Verif.GeoFile
open Verif.SLR Verif.SpatialIO Verif.HarmIO Verif.MeanField

/-- no hash in these lines -/
def NoHash (ls : List Line) : Prop := ∀ l ∈ ls, ∀ c ∈ l, c ≠ '#'

theorem noHash_cons {l : Line} {ls : List Line} (h : ∀ c ∈ l, c ≠ '#') (hs : NoHash ls) : NoHash (l :: ls) :=
  List.forall_mem_cons.2 ⟨h, hs⟩

theorem noHash_append {a b : List Line} (ha : NoHash a) (hb : NoHash b) : NoHash (a ++ b) := by
  intro l hl
  rcases List.mem_append.1 hl with h | h
  exacts [ha l h, hb l h]

theorem noHash_lit (ls : List Line) (h : (ls.all fun l => !l.contains '#') = true) : NoHash ls := by
  intro l hl c hc e
  have := List.all_eq_true.1 h l hl
  rw [e] at hc
  simp [hc] at this

theorem field_noHash (i w : ℕ) (name : String) (t : Line) (hn : name.toList.contains '#' = false) (ht : TextOk t) :
    ∀ c ∈ field i w name t, c ≠ '#' := by
  intro c hc
  simp only [field, blanks, padRight, List.mem_append, List.mem_cons, List.mem_replicate] at hc
  rcases hc with h | (h | h) | h | h | h
  · rw [h.2]; decide
  · rintro rfl; simp [h] at hn
  · rw [h.2]; decide
  · rw [h]; decide
  · rw [h]; decide
  · exact (ht.1 c h).2

theorem noHash_header (f : Info) (h : Texts f) (first last : ℤ) (hr : ∀ c ∈ orNone f.reference, c ≠ '#') :
    NoHash (headerLines f first last) := by
  unfold headerLines printHarmonic printGlobal
  have hi : NoHash ((references f).map (fun r => blanks 6 ++ ('-' :: ' ' :: r))) := by
    intro l hl c hc
    obtain ⟨r, hr', rfl⟩ := List.mem_map.1 hl
    simp only [blanks, List.mem_append, List.mem_cons, List.mem_replicate] at hc
    rcases hc with h | h | h | h
    · rw [h.2]; decide
    · rw [h]; decide
    · rw [h]; decide
    · rcases references_mem f r hr' with rfl | h'
      · exact hr c h
      · exact (fixed_items r h').2 c h
  have N : ∀ ls : List Line, (ls.all fun l => !l.contains '#') = true → NoHash ls := noHash_lit
  refine noHash_append (N _ (by decide +kernel)) (noHash_append ?_ (noHash_append (noHash_append (noHash_append ?_ hi) ?_)
    (N _ (by decide +kernel))))
  · refine noHash_append (a := [_, _, _]) (N _ (by decide +kernel)) (noHash_cons (field_noHash _ _ _ _ (by decide +kernel)
      (textOk_kl _)) (N _ (by decide +kernel)))
  · refine noHash_append (a := [_]) (N _ (by decide +kernel)) ?_
    refine noHash_cons (field_noHash _ _ _ _ (by decide +kernel) (textOk_title f h)) ?_
    refine noHash_cons (field_noHash _ _ _ _ (by decide +kernel) (textOk_summary f h)) ?_
    refine noHash_cons (field_noHash _ _ _ _ (by decide +kernel) (textOk_project _)) ?_
    refine noHash_cons (field_noHash _ _ _ _ (by decide +kernel) (textOk_keywords _)) ?_
    refine noHash_append (a := [_, _]) (N _ (by decide +kernel)) ?_
    refine noHash_cons (field_noHash _ _ _ _ (by decide +kernel) (textOk_source f h)) ?_
    refine noHash_append (a := [_]) (N _ (by decide +kernel)) ?_
    refine noHash_cons (field_noHash _ _ _ _ (by decide +kernel) (textOk_ack _)) ?_
    refine noHash_cons (field_noHash _ _ _ _ (by decide +kernel) (textOk_version f h)) ?_
    exact N _ (by decide +kernel)
  · refine noHash_append (a := [_, _, _, _, _]) (N _ (by decide +kernel)) ?_
    refine noHash_cons (field_noHash _ _ _ _ (by decide +kernel) (textOk_month _)) ?_
    refine noHash_cons (field_noHash _ _ _ _ (by decide +kernel) (textOk_month _)) ?_
    refine noHash_cons (field_noHash _ _ _ _ (by decide +kernel) (textOk_day _)) ?_
    exact N _ (by decide +kernel)

end Verif.GeoFile
