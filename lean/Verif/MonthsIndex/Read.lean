import Verif.MonthsIndex.Text
import Mathlib.Data.List.Sort
import Mathlib.Order.Lattice

/-!
# The datasets of the index and their order (lemmas)
-/
namespace Verif.MonthsIndex
open Verif.Time Verif.Dates Verif.SLR Verif.SpatialIO Verif.MonthsIndex.Spec

theorem keyOf_name (p r : Text) : keyOf p r = name p r := by simp [keyOf, name]

theorem center_key (p r p' r' : Text) (hp : p ∈ centers) (hp' : p' ∈ centers) (h : keyOf p r = keyOf p' r') :
    p = p' ∧ r = r' := by
  have hc : ∀ q ∈ centers, ∀ t : Text, (q ++ '_' :: t).takeWhile (· ≠ '_') = q := by
    intro q hq t
    have hu : ∀ c ∈ q, (c ≠ '_') := by revert q; decide
    rw [List.takeWhile_append_of_pos (by simpa using hu)]
    simp
  have h1 : p = p' := by
    rw [← hc p hp r, ← hc p' hp' r']
    exact congrArg (List.takeWhile (· ≠ '_')) h
  subst h1
  refine ⟨rfl, ?_⟩
  unfold keyOf at h
  have := List.append_cancel_left h
  simpa using this

/-! ## The loop over the datasets -/

/-- what is known after some of the datasets -/
structure Inv (disk : Disk) (rows : Text → Text → List Dated) (P : List (Text × Text))
    (s : List (Text × List Row) × ℤ) : Prop where
  nodup : (s.1.map Prod.fst).Nodup
  info : ∀ k v, (k, v) ∈ s.1 ↔ ∃ q ∈ P, (disk q.1 q.2).isSome ∧ k = keyOf q.1 q.2 ∧ v = (rows q.1 q.2).map rowOf
  nonneg : 0 ≤ s.2
  upper : ∀ q ∈ P, (disk q.1 q.2).isSome → ∀ d ∈ rows q.1 q.2, d.mon ≤ s.2
  reached : s.2 = 0 ∨ ∃ q ∈ P, (disk q.1 q.2).isSome ∧ ∃ d ∈ rows q.1 q.2, d.mon = s.2

theorem put_mem (d : List (Text × List Row)) (k : Text) (v : List Row) (k' : Text) (v' : List Row)
    (hv : ∀ w, (k, w) ∈ d → w = v) :
    (k', v') ∈ put d k v ↔ (k', v') ∈ d ∨ (k' = k ∧ v' = v) := by
  unfold put
  split_ifs with h
  · have hid : (d.map fun p => if p.1 = k then (k, v) else p) = d := by
      conv_rhs => rw [← List.map_id d]
      apply List.map_congr_left
      rintro ⟨a, b⟩ hab
      by_cases ha : a = k
      · subst ha; simp [hv b hab]
      · simp [ha]
    rw [hid]
    constructor
    · exact Or.inl
    · rintro (h' | ⟨rfl, rfl⟩)
      · exact h'
      · obtain ⟨⟨a, b⟩, hab, rfl⟩ := List.mem_map.1 h
        rw [← hv b hab]; exact hab
  · simp

theorem put_nodup (d : List (Text × List Row)) (k : Text) (v : List Row) (h : (d.map Prod.fst).Nodup) :
    ((put d k v).map Prod.fst).Nodup := by
  unfold put
  split_ifs with hk
  · have : (d.map fun p => if p.1 = k then (k, v) else p).map Prod.fst = d.map Prod.fst := by
      rw [List.map_map]
      apply List.map_congr_left
      intro p _
      simp only [Function.comp]
      split_ifs with e
      · exact e.symm
      · rfl
    rw [this]; exact h
  · rw [List.map_append, List.nodup_append]
    refine ⟨h, by simp, ?_⟩
    intro a ha b hb
    simp at hb
    subst hb
    rintro rfl
    exact hk ha

theorem max_spec (l : List ℤ) (h : l ≠ []) : ∃ m, l.max? = some m ∧ m ∈ l ∧ ∀ x ∈ l, x ≤ m := by
  cases hm : l.max? with
  | none => exact absurd (List.max?_eq_none_iff.1 hm) h
  | some m => exact ⟨m, rfl, (List.max?_eq_some_iff.1 hm).1, (List.max?_eq_some_iff.1 hm).2⟩

theorem readOne_ok (disk : Disk) (rows : Text → Text → List Dated) (P : List (Text × Text))
    (s : List (Text × List Row) × ℤ) (q : Text × Text) (hP : ∀ q ∈ P, q.1 ∈ centers) (hq : q.1 ∈ centers)
    (hg : ∀ f, disk q.1 q.2 = some f → DateFile f (rows q.1 q.2) ∧ rows q.1 q.2 ≠ [])
    (hi : Inv disk rows P s) : ∃ s', readOne disk s q = .ok s' ∧ Inv disk rows (P ++ [q]) s' := by
  unfold readOne
  cases hd : disk q.1 q.2 with
  | none =>
    refine ⟨s, rfl, hi.nodup, ?_, hi.nonneg, ?_, ?_⟩
    · intro k v
      rw [hi.info]
      constructor
      · rintro ⟨q', hq', h⟩; exact ⟨q', by simp [hq'], h⟩
      · rintro ⟨q', hq', h⟩
        rcases List.mem_append.1 hq' with hq' | hq'
        · exact ⟨q', hq', h⟩
        · rw [List.mem_singleton.1 hq', hd] at h; simp at h
    · intro q' hq' h
      rcases List.mem_append.1 hq' with hq' | hq'
      · exact hi.upper q' hq' h
      · rw [List.mem_singleton.1 hq', hd] at h; simp at h
    · rcases hi.reached with h | ⟨q', hq', h⟩
      · exact Or.inl h
      · exact Or.inr ⟨q', by simp [hq'], h⟩
  | some f =>
    obtain ⟨hf, hne⟩ := hg f hd
    obtain ⟨mx, hmx, hin, hup⟩ := max_spec (((rows q.1 q.2).map rowOf).map Row.mon) (by simpa using hne)
    dsimp only
    rw [loadDates_dated f _ hf]
    dsimp only
    rw [hmx]
    have hsome : (disk q.1 q.2).isSome := by rw [hd]; rfl
    refine ⟨_, rfl, put_nodup _ _ _ hi.nodup, ?_, ?_, ?_, ?_⟩
    · intro k v
      rw [put_mem]
      · rw [hi.info]
        constructor
        · rintro (⟨q', hq', h⟩ | ⟨rfl, rfl⟩)
          · exact ⟨q', by simp [hq'], h⟩
          · exact ⟨q, by simp, hsome, rfl, rfl⟩
        · rintro ⟨q', hq', h⟩
          rcases List.mem_append.1 hq' with hq' | hq'
          · exact Or.inl ⟨q', hq', h⟩
          · rw [List.mem_singleton.1 hq'] at h
            exact Or.inr h.2
      · intro w hw
        obtain ⟨q', hq', _, hk, rfl⟩ := (hi.info _ _).1 hw
        obtain ⟨e1, e2⟩ := center_key _ _ _ _ hq (hP q' hq') hk
        rw [e1, e2]
    · dsimp only
      have := hi.nonneg
      split_ifs <;> omega
    · intro q' hq' h d hdm
      dsimp only
      rcases List.mem_append.1 hq' with hq' | hq'
      · have := hi.upper q' hq' h d hdm
        split_ifs <;> omega
      · rw [List.mem_singleton.1 hq'] at hdm
        have := hup d.mon (by
          rw [List.map_map]
          exact List.mem_map.2 ⟨d, hdm, rfl⟩)
        split_ifs <;> omega
    · dsimp only
      split_ifs with h
      · right
        rw [List.map_map] at hin
        obtain ⟨d, hdm, e⟩ := List.mem_map.1 hin
        exact ⟨q, by simp, hsome, d, hdm, e⟩
      · rcases hi.reached with h' | ⟨q', hq', h'⟩
        · exact Or.inl h'
        · exact Or.inr ⟨q', by simp [hq'], h'⟩

theorem readList_ok (disk : Disk) (rows : Text → Text → List Dated) (Q : List (Text × Text)) :
    ∀ (P : List (Text × Text)) (s : List (Text × List Row) × ℤ), (∀ q ∈ P, q.1 ∈ centers) → (∀ q ∈ Q, q.1 ∈ centers) →
    (∀ q ∈ Q, ∀ f, disk q.1 q.2 = some f → DateFile f (rows q.1 q.2) ∧ rows q.1 q.2 ≠ []) → Inv disk rows P s →
    ∃ s', Q.foldlM (readOne disk) s = .ok s' ∧ Inv disk rows (P ++ Q) s' := by
  induction Q with
  | nil => intro P s _ _ _ hi; exact ⟨s, rfl, by simpa using hi⟩
  | cons q Q ih =>
    intro P s hP hQ hg hi
    obtain ⟨s1, h1, hi1⟩ := readOne_ok disk rows P s q hP (hQ q (by simp)) (hg q (by simp)) hi
    obtain ⟨s2, h2, hi2⟩ := ih (P ++ [q]) s1
      (by
        intro x hx
        rcases List.mem_append.1 hx with hx | hx
        · exact hP x hx
        · rw [List.mem_singleton.1 hx]; exact hQ q (by simp))
      (fun x hx => hQ x (by simp [hx])) (fun x hx => hg x (by simp [hx])) hi1
    refine ⟨s2, ?_, by simpa using hi2⟩
    rw [List.foldlM_cons, h1]
    exact h2

theorem mem_pairs (drel : List Text) (q : Text × Text) :
    q ∈ (drel.flatMap fun rl => centers.map fun pr => (pr, rl)) ↔ q.1 ∈ centers ∧ q.2 ∈ drel := by
  obtain ⟨p, r⟩ := q
  simp only [List.mem_flatMap, List.mem_map, Prod.mk.injEq]
  constructor
  · rintro ⟨rl, h1, pr, h2, rfl, rfl⟩; exact ⟨h2, h1⟩
  · rintro ⟨h1, h2⟩; exact ⟨r, h2, p, h1, rfl, rfl⟩

/-- all the date files can be read: the datasets and the last month -/
theorem readAll_ok (disk : Disk) (drel : List Text) (rows : Text → Text → List Dated)
    (hg : ∀ p r, Listed disk drel p r → ∃ f, disk p r = some f ∧ DateFile f (rows p r) ∧ rows p r ≠ []) :
    ∃ info mx, readAll disk drel = .ok (info, mx) ∧ (info.map Prod.fst).Nodup ∧
      (∀ k v, (k, v) ∈ info ↔ ∃ p r, Listed disk drel p r ∧ k = name p r ∧ v = (rows p r).map rowOf) ∧ 0 ≤ mx ∧
      (∀ p r, Listed disk drel p r → ∀ d ∈ rows p r, d.mon ≤ mx) ∧
      (mx = 0 ∨ ∃ p r, Listed disk drel p r ∧ ∃ d ∈ rows p r, d.mon = mx) := by
  obtain ⟨⟨info, mx⟩, h1, hi⟩ := readList_ok disk rows (drel.flatMap fun rl => centers.map fun pr => (pr, rl)) [] ([], 0)
    (by simp) (fun q hq => ((mem_pairs _ _).1 hq).1)
    (by
      intro q hq f hf
      obtain ⟨h1, h2⟩ := (mem_pairs _ _).1 hq
      obtain ⟨f', hf', h⟩ := hg q.1 q.2 ⟨h1, h2, by rw [hf]; rfl⟩
      rw [hf] at hf'
      cases hf'
      exact h)
    ⟨by simp, by simp, le_rfl, by simp, Or.inl rfl⟩
  rw [List.nil_append] at hi
  refine ⟨info, mx, h1, hi.nodup, ?_, hi.nonneg, ?_, ?_⟩
  · intro k v
    rw [hi.info]
    constructor
    · rintro ⟨q, hq, h1, h2, h3⟩
      exact ⟨q.1, q.2, ⟨((mem_pairs _ _).1 hq).1, ((mem_pairs _ _).1 hq).2, h1⟩, by rw [h2, keyOf_name], h3⟩
    · rintro ⟨p, r, ⟨h1, h2, h3⟩, h4, h5⟩
      exact ⟨(p, r), (mem_pairs _ _).2 ⟨h1, h2⟩, h3, by rw [h4, keyOf_name], h5⟩
  · intro p r h
    exact hi.upper (p, r) ((mem_pairs _ _).2 ⟨h.1, h.2.1⟩) h.2.2
  · rcases hi.reached with h | ⟨q, hq, h1, h2⟩
    · exact Or.inl h
    · exact Or.inr ⟨q.1, q.2, ⟨((mem_pairs _ _).1 hq).1, ((mem_pairs _ _).1 hq).2, h1⟩, h2⟩

/-! ## The order of the datasets -/

theorem nameLe_iff (s t : Text) : nameLe s t = true ↔ s ≤ t := by
  induction s generalizing t with
  | nil => simp [nameLe]
  | cons a s ih =>
    cases t with
    | nil => simp [nameLe]
    | cons b t =>
      rw [nameLe, List.cons_le_cons_iff]
      by_cases h : a = b
      · subst h
        rw [if_pos rfl, ih]
        simp
      · rw [if_neg h, decide_eq_true_iff]
        constructor
        · intro h'; exact Or.inl h'
        · rintro (h' | h')
          · exact h'
          · exact absurd h'.1 h

theorem mem_insertByName (p q : Text × List Row) (d : List (Text × List Row)) :
    q ∈ insertByName p d ↔ q = p ∨ q ∈ d := by
  induction d with
  | nil => simp [insertByName]
  | cons a d ih =>
    rw [insertByName]
    split_ifs
    · simp
    · rw [List.mem_cons, ih, List.mem_cons]; tauto

theorem mem_sortByName (q : Text × List Row) (d : List (Text × List Row)) : q ∈ sortByName d ↔ q ∈ d := by
  induction d with
  | nil => simp [sortByName]
  | cons a d ih =>
    have : sortByName (a :: d) = insertByName a (sortByName d) := rfl
    rw [this, mem_insertByName, ih, List.mem_cons]

theorem insertByName_sorted (p : Text × List Row) (d : List (Text × List Row))
    (hd : (d.map Prod.fst).Pairwise (· < ·)) (hp : p.1 ∉ d.map Prod.fst) :
    ((insertByName p d).map Prod.fst).Pairwise (· < ·) := by
  induction d with
  | nil => simp [insertByName]
  | cons a d ih =>
    rw [List.map_cons, List.pairwise_cons] at hd
    rw [List.map_cons, List.mem_cons, not_or] at hp
    rw [insertByName]
    split_ifs with h
    · rw [nameLe_iff] at h
      have hlt : p.1 < a.1 := (List.le_iff_lt_or_eq.1 h).resolve_right hp.1
      rw [List.map_cons, List.map_cons, List.pairwise_cons]
      refine ⟨?_, List.pairwise_cons.2 hd⟩
      intro x hx
      rcases List.mem_cons.1 hx with rfl | hx
      · exact hlt
      · exact List.lt_trans hlt (hd.1 x hx)
    · rw [nameLe_iff, List.not_le] at h
      rw [List.map_cons, List.pairwise_cons]
      refine ⟨?_, ih hd.2 hp.2⟩
      intro x hx
      obtain ⟨q, hq, rfl⟩ := List.mem_map.1 hx
      rcases (mem_insertByName p q d).1 hq with rfl | hq
      · exact h
      · exact hd.1 _ (List.mem_map.2 ⟨q, hq, rfl⟩)

theorem sortByName_sorted (d : List (Text × List Row)) (hd : (d.map Prod.fst).Nodup) :
    ((sortByName d).map Prod.fst).Pairwise (· < ·) := by
  induction d with
  | nil => simp [sortByName]
  | cons a d ih =>
    rw [List.map_cons, List.nodup_cons] at hd
    have : sortByName (a :: d) = insertByName a (sortByName d) := rfl
    rw [this]
    refine insertByName_sorted a _ (ih hd.2) ?_
    intro hx
    obtain ⟨q, hq, e⟩ := List.mem_map.1 hx
    exact hd.1 (List.mem_map.2 ⟨q, (mem_sortByName q d).1 hq, e⟩)

end Verif.MonthsIndex
