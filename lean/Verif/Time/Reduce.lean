import Verif.Time.Model
import Mathlib.Tactic.Linarith
import Mathlib.Data.List.Duplicate
import Mathlib.Data.List.NodupEquivFin

/-!
# C08: `reduce_by_date`
-/
namespace Verif.Time
variable {α D : Type} [LinearOrder D]

theorem argmaxIdx_spec (vs : List ℤ) (h : vs ≠ []) :
    ∃ v, vs[argmaxIdx vs]? = some v ∧ ∀ w ∈ vs, w ≤ v := by
  unfold argmaxIdx
  cases hm : vs.max? with
  | none => simp at hm; exact absurd hm h
  | some mx =>
    have := (List.max?_eq_some_iff).1 hm
    refine ⟨mx, ?_, this.2⟩
    simp [List.getElem?_idxOf this.1]

theorem reduceByDate_eq (date : α → D) (ver : α → ℤ) (granules : List α) :
    reduceByDate date ver granules =
      ((granules.map date).dedup.insertionSort (· ≤ ·)).filterMap (pickNewest date ver granules) := by
  unfold reduceByDate
  simp only
  generalize ((granules.map date).dedup.insertionSort (· ≤ ·)) = u
  have h : ∀ acc : List α, List.foldl (fun acc d =>
      match pickNewest date ver granules d with
      | some f => acc ++ [f]
      | none => acc) acc u = acc ++ u.filterMap (pickNewest date ver granules) := by
    induction u with
    | nil => intro acc; simp
    | cons d u ih =>
      intro acc
      rw [List.foldl_cons, ih, List.filterMap_cons]
      cases pickNewest date ver granules d <;> simp
  exact (h []).trans (by simp)

theorem filterMap_index (granules : List α) (ver : α → ℤ) (is : List ℕ)
    (h : ∀ i ∈ is, i < granules.length) (k : ℕ) :
    (is.filterMap fun i => (granules[i]?).map ver)[k]? =
      (is[k]?).bind fun i => (granules[i]?).map ver := by
  induction is generalizing k with
  | nil => simp
  | cons i is ih =>
    have hi : i < granules.length := h i List.mem_cons_self
    have ih' := ih (fun j hj => h j (List.mem_cons_of_mem _ hj))
    rw [List.filterMap_cons]
    simp only [List.getElem?_eq_getElem hi, Option.map_some]
    cases k with
    | zero => simp [hi]
    | succ k => simpa using ih' k

theorem pick_spec (date : α → D) (ver : α → ℤ) (granules : List α) (d : D)
    (hd : d ∈ granules.map date) :
    ∃ f, pickNewest date ver granules d = some f ∧ f ∈ granules ∧ date f = d ∧
      ∀ f' ∈ granules, date f' = d → ver f' ≤ ver f := by
  unfold pickNewest
  simp only
  have hc : 0 < (granules.map date).count d := List.count_pos_iff.2 hd
  split_ifs with h1 h2
  · have hi := List.idxOf_lt_length_of_mem hd
    have hi' : (granules.map date).idxOf d < granules.length := by simpa using hi
    have e := List.getElem_idxOf hi
    simp only [List.getElem_map] at e
    refine ⟨_, List.getElem?_eq_getElem hi', List.getElem_mem _, e, ?_⟩
    intro f' hf' hdf
    -- uniqueness from count = 1
    obtain ⟨k, hk, rfl⟩ := List.getElem_of_mem hf'
    have : k = (granules.map date).idxOf d := by
      by_contra hne
      have : List.Duplicate d (granules.map date) := by
        rw [List.duplicate_iff_exists_distinct_get]
        have hk' : k < (granules.map date).length := by simpa using hk
        rcases Nat.lt_or_gt_of_ne hne with hlt | hgt
        · exact ⟨⟨k, hk'⟩, ⟨_, hi⟩, hlt, by simp [hdf], by simp⟩
        · exact ⟨⟨_, hi⟩, ⟨k, hk'⟩, hgt, by simp, by simp [hdf]⟩
      rw [List.duplicate_iff_two_le_count] at this
      omega
    subst this; exact le_refl _
  · set indices := (List.range (granules.map date).length).filter
      fun i => (granules.map date)[i]? = some d with hind
    have mem_ind : ∀ i, i ∈ indices ↔ ∃ h : i < granules.length, date granules[i] = d := by
      intro i
      rw [hind]; simp only [List.mem_filter, List.mem_range, List.length_map, decide_eq_true_eq]
      constructor
      · rintro ⟨h, e⟩; refine ⟨h, ?_⟩
        simpa [h] using e
      · rintro ⟨h, e⟩; exact ⟨h, by simp [h, e]⟩
    have hlt : ∀ i ∈ indices, i < granules.length := fun i hi => ((mem_ind i).1 hi).1
    set versions := indices.filterMap fun i => (granules[i]?).map ver with hver
    have hne : versions ≠ [] := by
      obtain ⟨f, hf, hfd⟩ := List.mem_map.1 hd
      obtain ⟨k, hk, rfl⟩ := List.getElem_of_mem hf
      intro hnil
      have : ver granules[k] ∈ versions := by
        rw [hver, List.mem_filterMap]
        exact ⟨k, (mem_ind k).2 ⟨hk, hfd⟩, by simp [hk]⟩
      rw [hnil] at this; simp at this
    obtain ⟨v, hv, hmax⟩ := argmaxIdx_spec versions hne
    rw [hver, filterMap_index granules ver indices hlt, ← hver] at hv
    cases hidx : indices[argmaxIdx versions]? with
    | none => rw [hidx] at hv; simp at hv
    | some i =>
      have hi : i ∈ indices := List.mem_of_getElem? hidx
      obtain ⟨hil, hid⟩ := (mem_ind i).1 hi
      rw [hidx] at hv
      simp [hil] at hv
      refine ⟨granules[i], by simp [hil], List.getElem_mem _, hid, ?_⟩
      intro f' hf' hfd'
      obtain ⟨k, hk, rfl⟩ := List.getElem_of_mem hf'
      rw [hv]
      apply hmax
      rw [hver, List.mem_filterMap]
      exact ⟨k, (mem_ind k).2 ⟨hk, hfd'⟩, by simp [hk]⟩
  · omega

theorem reduceByDate_dates (date : α → D) (ver : α → ℤ) (granules : List α) :
    (reduceByDate date ver granules).map date =
      (granules.map date).dedup.insertionSort (· ≤ ·) := by
  rw [reduceByDate_eq]
  have hmem : ∀ d ∈ (granules.map date).dedup.insertionSort (· ≤ ·), d ∈ granules.map date := by
    intro d hd
    rw [List.mem_insertionSort] at hd
    exact List.mem_dedup.1 hd
  revert hmem
  generalize (granules.map date).dedup.insertionSort (· ≤ ·) = u
  intro hmem
  induction u with
  | nil => rfl
  | cons d u ih =>
    obtain ⟨f, hf, -, hfd, -⟩ := pick_spec date ver granules d (hmem d List.mem_cons_self)
    rw [List.filterMap_cons, hf]
    simp only [List.map_cons, hfd]
    rw [ih (fun d' h => hmem d' (List.mem_cons_of_mem _ h))]

/-- C08: the result is sorted by strictly increasing date (so no date repeats). -/
theorem reduce_strictly_sorted (date : α → D) (ver : α → ℤ) (granules : List α) :
    ((reduceByDate date ver granules).map date).Pairwise (· < ·) := by
  rw [reduceByDate_dates]
  have h1 : ((granules.map date).dedup.insertionSort (· ≤ ·)).Pairwise (· ≤ ·) := by
    exact List.pairwise_insertionSort _ _
  have h2 : ((granules.map date).dedup.insertionSort (· ≤ ·)).Nodup :=
    (List.perm_insertionSort _ _).nodup_iff.2 (List.nodup_dedup _)
  exact (h1.and h2).imp fun h => lt_of_le_of_ne h.1 h.2

/-- C08: every returned file is an input file, and it has the largest version among
the input files of its date. -/
theorem reduce_mem_newest (date : α → D) (ver : α → ℤ) (granules : List α) (f : α)
    (hf : f ∈ reduceByDate date ver granules) :
    f ∈ granules ∧ ∀ f' ∈ granules, date f' = date f → ver f' ≤ ver f := by
  rw [reduceByDate_eq, List.mem_filterMap] at hf
  obtain ⟨d, hd, hp⟩ := hf
  rw [List.mem_insertionSort, List.mem_dedup] at hd
  obtain ⟨f', hf', hm, hfd, hmax⟩ := pick_spec date ver granules d hd
  rw [hf'] at hp
  obtain rfl := Option.some.inj hp
  exact ⟨hm, fun f'' h h' => hmax f'' h (h'.trans hfd)⟩

/-- C08: for every date present exactly one file of that date is returned. -/
theorem reduce_one_per_date (date : α → D) (ver : α → ℤ) (granules : List α) (f : α)
    (hf : f ∈ granules) : ∃! k : Fin (reduceByDate date ver granules).length,
      date ((reduceByDate date ver granules).get k) = date f := by
  have hs := reduce_strictly_sorted date ver granules
  have hd : date f ∈ (reduceByDate date ver granules).map date := by
    rw [reduceByDate_dates, List.mem_insertionSort, List.mem_dedup]
    exact List.mem_map_of_mem hf
  obtain ⟨r, hr, hrd⟩ := List.mem_map.1 hd
  obtain ⟨k, rfl⟩ := List.get_of_mem hr
  refine ⟨k, hrd, ?_⟩
  intro k' hk'
  by_contra hne
  rw [List.pairwise_map, List.pairwise_iff_get] at hs
  rcases lt_or_gt_of_ne hne with h | h
  · have := hs _ _ h; rw [hk', hrd] at this; exact lt_irrefl _ this
  · have := hs _ _ h; rw [hk', hrd] at this; exact lt_irrefl _ this

/-- C08: the dates of the result do not depend on the order of the input, and when no
two files of one date share a version neither does the list of files. -/
theorem reduce_order_independent (date : α → D) (ver : α → ℤ) (g g' : List α)
    (hp : g.Perm g')
    (hv : ∀ a ∈ g, ∀ b ∈ g, date a = date b → ver a = ver b → a = b) :
    reduceByDate date ver g = reduceByDate date ver g' := by
  have hu : (g.map date).dedup.insertionSort (· ≤ ·) = (g'.map date).dedup.insertionSort (· ≤ ·) := by
    have h1 := reduce_strictly_sorted date ver g
    have h2 := reduce_strictly_sorted date ver g'
    rw [reduceByDate_dates] at h1 h2
    refine List.Perm.eq_of_pairwise (le := (· < ·)) ?_ h1 h2 ?_
    · intro a b _ _ hab hba; exact absurd hab (lt_asymm hba)
    · exact (List.perm_insertionSort _ _).trans
        ((List.Perm.dedup (hp.map date)).trans (List.perm_insertionSort _ _).symm)
  rw [reduceByDate_eq, reduceByDate_eq, hu]
  apply List.filterMap_congr
  intro d hd
  rw [List.mem_insertionSort, List.mem_dedup] at hd
  have hd' : d ∈ g.map date := (hp.map date).mem_iff.2 hd
  obtain ⟨f, hf, hm, hfd, hmax⟩ := pick_spec date ver g d hd'
  obtain ⟨f', hf', hm', hfd', hmax'⟩ := pick_spec date ver g' d hd
  rw [hf, hf']
  congr 1
  have hm'' : f' ∈ g := hp.mem_iff.2 hm'
  exact hv f hm f' hm'' (hfd.trans hfd'.symm)
    (le_antisymm (hmax' f (hp.mem_iff.1 hm) hfd) (hmax f' hm'' hfd'))

-- files are (date, version) pairs
example : reduceByDate (α := ℕ × ℤ) (D := ℕ) Prod.fst Prod.snd
    [(5,1),(3,0),(5,4),(5,2),(2,7)] = [(2,7),(3,0),(5,4)] := by decide +kernel
-- hypotheses of `reduce_order_independent`
example : ∀ a ∈ ([(5,1),(3,0),(5,4)] : List (ℕ × ℤ)), ∀ b ∈ ([(5,1),(3,0),(5,4)] : List (ℕ × ℤ)),
    a.1 = b.1 → a.2 = b.2 → a = b := by decide

end Verif.Time
