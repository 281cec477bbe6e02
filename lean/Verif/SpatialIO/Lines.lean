import Verif.SpatialIO.Model

/-!
# Lemmas: what is found on the written lines
-/
namespace Verif.SpatialIO
open Verif.SLR Verif.GIA

/-! ## columns -/

theorem lookup_append_none {α β : Type} [BEq α] [LawfulBEq α] (l m : List (α × β)) (k : α) (h : ∀ p ∈ l, p.1 ≠ k) :
    (l ++ m).lookup k = m.lookup k := by
  induction l with
  | nil => rfl
  | cons p t ih =>
    obtain ⟨a, b⟩ := p
    have ha : a ≠ k := h (a, b) (by simp)
    rw [List.cons_append, List.lookup_cons, beq_false_of_ne (Ne.symm ha)]
    exact ih fun q hq => h q (by simp [hq])

/-- the first three columns of a line are read under their names -/
theorem field_first (rest : List String) (line : List Char) (t1 t2 t3 : Tok) (ts : List Tok)
    (hr : ∀ c ∈ rest, c ≠ "lon" ∧ c ≠ "lat" ∧ c ≠ "data") (h : rxAll (dToE line) = (t1 :: t2 :: t3 :: ts).map Tok.chars) :
    field ("lon" :: "lat" :: "data" :: rest) line "lon" = .ok t1.val ∧
      field ("lon" :: "lat" :: "data" :: rest) line "lat" = .ok t2.val ∧
      field ("lon" :: "lat" :: "data" :: rest) line "data" = .ok t3.val := by
  have key : ∀ k : String, (∀ c ∈ rest, c ≠ k) →
      ((("lon" :: "lat" :: "data" :: rest).zip (rxAll (dToE line))).reverse).lookup k =
        [("data", t3.chars), ("lat", t2.chars), ("lon", t1.chars)].lookup k := by
    intro k hk
    rw [h]
    simp only [List.map_cons, List.zip_cons_cons, List.reverse_cons, List.append_assoc, List.cons_append, List.nil_append]
    apply lookup_append_none
    rintro ⟨a, b⟩ hp
    rw [List.mem_reverse] at hp
    exact hk a (List.of_mem_zip hp).1
  unfold field
  rw [key "lon" fun c hc => (hr c hc).1, key "lat" fun c hc => (hr c hc).2.1, key "data" fun c hc => (hr c hc).2.2]
  refine ⟨?_, ?_, ?_⟩
  · have : [("data", t3.chars), ("lat", t2.chars), ("lon", t1.chars)].lookup "lon" = some t1.chars := rfl
    rw [this]; simp only [pyFloat_tok]
  · have : [("data", t3.chars), ("lat", t2.chars), ("lon", t1.chars)].lookup "lat" = some t2.chars := rfl
    rw [this]; simp only [pyFloat_tok]
  · have : [("data", t3.chars), ("lat", t2.chars), ("lon", t1.chars)].lookup "data" = some t3.chars := rfl
    rw [this]; simp only [pyFloat_tok]

/-! ## characters -/

theorem dToE_id (cs : List Char) (h : ∀ c ∈ cs, c ≠ 'D') : dToE cs = cs := by
  unfold dToE
  conv_rhs => rw [← List.map_id cs]
  apply List.map_congr_left
  intro c hc
  rw [if_neg (h c hc)]; rfl

theorem dchar_noD (d : Fin 10) : dchar d ≠ 'D' := by revert d; decide

theorem pad_noD (w : ℕ) (s : List Char) (h : ∀ c ∈ s, c ≠ 'D') : ∀ c ∈ pad w s, c ≠ 'D' := by
  intro c hc
  unfold pad at hc
  rw [List.mem_append] at hc
  rcases hc with hc | hc
  · rw [List.mem_replicate] at hc; rw [hc.2]; decide
  · exact h c hc

theorem fmtF_noD (w p : ℕ) (x : ℚ) : ∀ c ∈ fmtF w p x, c ≠ 'D' := by
  unfold fmtF
  apply pad_noD
  intro c hc
  simp only [List.mem_append, List.mem_map, List.mem_cons] at hc
  rcases hc with (hc | ⟨d, _, rfl⟩) | rfl | ⟨d, _, rfl⟩
  · split at hc <;> simp at hc
    subst hc; decide
  · exact dchar_noD d
  · decide
  · exact dchar_noD d

theorem fmtV_noD (w p : ℕ) (x : Option ℚ) : ∀ c ∈ fmtV w p x, c ≠ 'D' := by
  cases x with
  | some x => exact fmtF_noD w p x
  | none =>
    apply pad_noD
    intro c hc
    simp at hc
    rcases hc with rfl | rfl | rfl <;> decide

theorem join_noD (l : List (List Char)) (h : ∀ s ∈ l, ∀ c ∈ s, c ≠ 'D') : ∀ c ∈ joinFields l, c ≠ 'D' := by
  induction l with
  | nil => intro c hc; simp [joinFields] at hc
  | cons a r ih =>
    cases r with
    | nil => exact h a (by simp)
    | cons b r =>
      intro c hc
      simp only [joinFields, List.mem_append, List.mem_cons] at hc
      rcases hc with hc | rfl | hc
      · exact h a (by simp) c hc
      · decide
      · exact ih (fun s hs => h s (by simp [hs])) c hc

/-! ## lines -/

/-- the numbers of a field: none for NaN -/
def toks (p : ℕ) : Option ℚ → List Tok
  | some x => [.dec (litOf p x)]
  | none => []

/-- the numbers on a line are those of its fields -/
theorem num_join (l : List (ℕ × Option ℚ)) :
    Num (joinFields (l.map fun f => fmtV f.1 4 f.2)) (l.flatMap fun f => toks 4 f.2) := by
  have key : ∀ (f : ℕ × Option ℚ) (cs : List Char) (ts : List Tok), Stop cs → Num cs ts →
      Num (fmtV f.1 4 f.2 ++ cs) (toks 4 f.2 ++ ts) := by
    rintro ⟨w, x⟩ cs ts hs hn
    cases x with
    | some x => exact num_fmtF w 4 x cs ts hs hn
    | none => exact num_nan w 4 cs ts hs hn
  induction l with
  | nil => exact Num.nil
  | cons f r ih =>
    cases r with
    | nil =>
      have := key f [] [] (Or.inl rfl) Num.nil
      simpa [joinFields] using this
    | cons f' r =>
      have hs : Stop (' ' :: joinFields ((f' :: r).map fun f => fmtV f.1 4 f.2)) := Or.inr ⟨' ', _, rfl, rfl⟩
      exact key f _ _ hs (Num.blank ' ' rfl ih)

/-- the fields of a line -/
def lineFields (g : Grid) (date : Bool) (c : ℕ × ℕ) : List (ℕ × Option ℚ) :=
  [(10, some (g.lon.getD c.2 0)), (10, some (g.lat.getD c.1 0)), (12, g.data c.1 c.2)] ++
    (match g.error with
      | some e => [(12, e c.1 c.2)]
      | none => []) ++
    (if date then [(10, g.time)] else [])

theorem writeLine_eq (g : Grid) (date : Bool) (c : ℕ × ℕ) (ht : date = true → g.time ≠ none) :
    writeLine g date c = .ok (joinFields ((lineFields g date c).map fun f => fmtV f.1 4 f.2)) := by
  unfold writeLine lineFields
  cases he : g.error <;> cases date <;> cases hi : g.time <;> simp [hi, fmtV] at ht ⊢

theorem line_nums (g : Grid) (date : Bool) (c : ℕ × ℕ) :
    rxAll (dToE (joinFields ((lineFields g date c).map fun f => fmtV f.1 4 f.2))) =
      ((lineFields g date c).flatMap fun f => toks 4 f.2).map Tok.chars := by
  rw [dToE_id]
  · exact rxAll_num _ _ (num_join _)
  · apply join_noD
    intro s hs
    rw [List.mem_map] at hs
    obtain ⟨f, _, rfl⟩ := hs
    exact fmtV_noD _ _ _

theorem mapM_ok {α β ε : Type} (f : α → Except ε β) (h : α → β) (l : List α) (hl : ∀ a ∈ l, f a = .ok (h a)) :
    l.mapM f = .ok (l.map h) := by
  induction l with
  | nil => rfl
  | cons a t ih =>
    rw [List.mapM_cons, hl a (by simp), ih fun b hb => hl b (by simp [hb])]
    rfl

theorem mem_validCells (g : Grid) (i j : ℕ) : (i, j) ∈ validCells g ↔
    i < g.lat.length ∧ j < g.lon.length ∧ isFill g.fill (g.data i j) = false ∧ g.mask i j = false := by
  unfold validCells
  simp only [List.mem_flatMap, List.mem_range, List.mem_map, List.mem_filter, Bool.and_eq_true, Bool.not_eq_true',
    Prod.mk.injEq]
  constructor
  · rintro ⟨a, ha, b, ⟨hb, h1, h2⟩, rfl, rfl⟩
    exact ⟨ha, hb, h1, h2⟩
  · rintro ⟨ha, hb, h1, h2⟩
    exact ⟨i, ha, j, ⟨hb, h1, h2⟩, rfl, rfl⟩

end Verif.SpatialIO
