import Verif.Describe.Model
import Mathlib.Tactic.Linarith
import Mathlib.Tactic.SplitIfs
import Mathlib.Tactic.NormNum

/-!
# C117: text, length and truth value of the objects; objects made of dictionaries
-/
namespace Verif.Describe

/-! ## Months -/

theorem minMax_list (l : List ℤ) (hl : l ≠ []) :
    ∃ a b, minMax (.list l) = .ok (a, b) ∧ minMax (.arr l) = .ok (a, b) ∧ a ∈ l ∧ b ∈ l ∧ ∀ x ∈ l, a ≤ x ∧ x ≤ b := by
  cases ha : l.min? with
  | none => exact absurd (List.min?_eq_none_iff.1 ha) hl
  | some a =>
    cases hb : l.max? with
    | none => exact absurd (List.max?_eq_none_iff.1 hb) hl
    | some b =>
      have h1 := List.min?_eq_some_iff.1 ha
      have h2 := List.max?_eq_some_iff.1 hb
      refine ⟨a, b, ?_, ?_, h1.1, h2.1, fun x hx => ⟨h1.2 x hx, h2.2 x hx⟩⟩ <;>
      · unfold minMax; simp only [ha, hb]

/-- C117: the text of an object names the first and the last month, if the months are a list. -/
theorem months_of_list (show_ : ℤ → String) (l : List ℤ) (hl : l ≠ []) :
    ∃ a b, monthLines show_ (.list l) = .ok ["    start_month: " ++ show_ a, "    end_month: " ++ show_ b] ∧
      a ∈ l ∧ b ∈ l ∧ ∀ x ∈ l, a ≤ x ∧ x ≤ b := by
  obtain ⟨a, b, h1, -, h2⟩ := minMax_list l hl
  refine ⟨a, b, ?_, h2⟩
  unfold monthLines truth
  simp only [hl, ne_eq, not_false_eq_true, decide_true, bind, Except.bind, if_true, h1, pure, Except.pure]

/-- C117 (negative): the text of an object with an array of two or more months, or of a single month without dimensions, cannot be
made: `str` raises for `harmonics`, `geocenter` and (if it has points) `spatial` objects. -/
theorem series_has_no_text (show_ : ℤ → String) (m : Months)
    (h : (∃ l, m = .arr l ∧ 2 ≤ l.length) ∨ ∃ k, m = .scalar k ∧ k ≠ 0) :
    (∃ e, geocenterStr show_ m = .error e) ∧ (∀ lmax mmax, ∃ e, harmonicsStr show_ lmax mmax m = .error e) ∧
    ∀ showQ lon lat shape, ∃ e, spatialStr show_ showQ lon lat shape m = .error e := by
  have key : ∃ e, monthLines show_ m = .error e := by
    rcases h with ⟨l, rfl, hl⟩ | ⟨k, rfl, hk⟩
    · match l, hl with
      | _ :: _ :: _, _ => exact ⟨.value, rfl⟩
    · refine ⟨.type, ?_⟩
      unfold monthLines truth minMax
      simp [bind, Except.bind, hk]
  obtain ⟨e, he⟩ := key
  refine ⟨⟨e, by unfold geocenterStr; rw [he]; rfl⟩, fun lmax mmax => ⟨e, by unfold harmonicsStr; rw [he]; rfl⟩, ?_⟩
  intro showQ lon lat shape
  unfold spatialStr
  cases extent lon lat with
  | error x => exact ⟨x, rfl⟩
  | ok x => exact ⟨e, by rw [he]; rfl⟩

/-- C117: exactly the other objects have a text: those without months, with a list, with an array of at most one month, or with the
month zero. -/
theorem has_text_iff (show_ : ℤ → String) (m : Months) : (∃ t, geocenterStr show_ m = .ok t) ↔
    m = .none ∨ m = .scalar 0 ∨ (∃ l, m = .list l) ∨ ∃ l, m = .arr l ∧ l.length < 2 := by
  constructor
  · rintro ⟨t, ht⟩
    by_contra hc
    have : (∃ l, m = .arr l ∧ 2 ≤ l.length) ∨ ∃ k, m = .scalar k ∧ k ≠ 0 := by
      cases m with
      | none => simp at hc
      | scalar k => right; exact ⟨k, rfl, fun h => hc (Or.inr (Or.inl (by rw [h])))⟩
      | arr l =>
        left
        refine ⟨l, rfl, ?_⟩
        by_contra h
        exact hc (Or.inr (Or.inr (Or.inr ⟨l, rfl, by omega⟩)))
      | list l => exact absurd (Or.inr (Or.inr (Or.inl ⟨l, rfl⟩))) hc
    obtain ⟨⟨e, he⟩, -⟩ := series_has_no_text show_ m this
    rw [he] at ht
    simp at ht
  · rintro (rfl | rfl | ⟨l, rfl⟩ | ⟨l, rfl, hl⟩)
    · exact ⟨_, rfl⟩
    · exact ⟨_, rfl⟩
    · by_cases hl : l = []
      · subst hl; exact ⟨_, rfl⟩
      · obtain ⟨a, b, h, -⟩ := months_of_list show_ l hl
        exact ⟨_, by unfold geocenterStr; rw [h]; rfl⟩
    · match l, hl with
      | [], _ => exact ⟨_, rfl⟩
      | [k], _ =>
        by_cases hk : k = 0
        · subst hk; exact ⟨_, rfl⟩
        · refine ⟨["gravity_toolkit.geocenter", "    start_month: " ++ show_ k, "    end_month: " ++ show_ k], ?_⟩
          unfold geocenterStr monthLines truth minMax
          simp [bind, Except.bind, hk, pure, Except.pure]

/-- C117: the text of coefficients has the degree, and the order if it is neither that degree nor zero. -/
theorem harmonics_text (show_ : ℤ → String) (lmax mmax : ℕ) (m : Months) (t : List String) (h : monthLines show_ m = .ok t) :
    harmonicsStr show_ lmax mmax m = .ok (["gravity_toolkit.harmonics", "    max_degree: " ++ show_ lmax] ++
      (if mmax ≠ 0 ∧ mmax ≠ lmax then ["    max_order: " ++ show_ mmax] else []) ++ t) := by
  unfold harmonicsStr; rw [h]; rfl

/-- C117 (negative): coefficients of order zero only have the same text as coefficients of all orders. -/
theorem zonal_text (show_ : ℤ → String) (lmax : ℕ) (m : Months) : harmonicsStr show_ lmax 0 m = harmonicsStr show_ lmax lmax m := by
  unfold harmonicsStr
  simp

/-- C117: the length of an object is the number of its months; `bool` is whether it has any. -/
theorem len_spec (l : List ℤ) (h : ∃ m ∈ l, m ≠ 0) :
    len (.arr l) = .ok l.length ∧ len (.list l) = .ok l.length ∧ objTruth (.arr l) = .ok true := by
  have ha : (l.any fun m => decide (m ≠ 0)) = true := by
    rw [List.any_eq_true]
    obtain ⟨m, hm, h0⟩ := h
    exact ⟨m, hm, by simpa using h0⟩
  have hl : l ≠ [] := by
    obtain ⟨m, hm, -⟩ := h
    exact List.ne_nil_of_mem hm
  refine ⟨?_, ?_, ?_⟩
  · show Except.ok _ = _
    rw [if_pos ha]
  · show Except.ok _ = _
    rw [if_pos ha]
  · unfold objTruth
    have : len (.arr l) = .ok l.length := by show Except.ok _ = _; rw [if_pos ha]
    rw [this]
    simp [bind, Except.bind, pure, Except.pure, hl]

/-- C117: without months, or if all are zero, the length is zero and the object counts as false. -/
theorem len_zero (m : Months) (h : m = .none ∨ m = .scalar 0 ∨ ∃ l, (m = .arr l ∨ m = .list l) ∧ ∀ x ∈ l, x = 0) :
    len m = .ok 0 ∧ objTruth m = .ok false := by
  have key : len m = .ok 0 := by
    rcases h with rfl | rfl | ⟨l, rfl | rfl, hl⟩
    · rfl
    · rfl
    all_goals
      show Except.ok _ = _
      rw [if_neg]
      rw [List.any_eq_true]
      rintro ⟨x, hx, h0⟩
      simp [hl x hx] at h0
  exact ⟨key, by unfold objTruth; rw [key]; rfl⟩

/-- C117 (negative): an object of a single month without dimensions (as the readers of single files return it) has neither length
nor truth value. -/
theorem single_month (m : ℤ) (h : m ≠ 0) : len (.scalar m) = .error .type ∧ objTruth (.scalar m) = .error .type := by
  have : len (.scalar m) = .error .type := by unfold len; dsimp only; rw [if_pos h]
  exact ⟨this, by unfold objTruth; rw [this]; rfl⟩

/-- C117 (negative): `squeeze(update_dimensions=False)` always raises. -/
theorem squeeze_keep (b : Bool) : squeezeEnd b = .ok () ↔ b = true := by cases b <;> simp [squeezeEnd]

/-! ## Bounds -/

/-- C117: the extent holds the smallest and largest longitude and latitude. -/
theorem extent_spec (lon lat : List ℚ) (h1 : lon ≠ []) (h2 : lat ≠ []) :
    ∃ a b c d, extent lon lat = .ok [a, b, c, d] ∧ a ∈ lon ∧ b ∈ lon ∧ c ∈ lat ∧ d ∈ lat ∧
      (∀ x ∈ lon, a ≤ x ∧ x ≤ b) ∧ ∀ y ∈ lat, c ≤ y ∧ y ≤ d := by
  obtain ⟨a, ha⟩ := Option.ne_none_iff_exists'.1 (fun h => h1 (List.min?_eq_none_iff.1 h) : lon.min? ≠ none)
  obtain ⟨b, hb⟩ := Option.ne_none_iff_exists'.1 (fun h => h1 (List.max?_eq_none_iff.1 h) : lon.max? ≠ none)
  obtain ⟨c, hc⟩ := Option.ne_none_iff_exists'.1 (fun h => h2 (List.min?_eq_none_iff.1 h) : lat.min? ≠ none)
  obtain ⟨d, hd⟩ := Option.ne_none_iff_exists'.1 (fun h => h2 (List.max?_eq_none_iff.1 h) : lat.max? ≠ none)
  have q1 := List.min?_eq_some_iff.1 ha
  have q2 := List.max?_eq_some_iff.1 hb
  have q3 := List.min?_eq_some_iff.1 hc
  have q4 := List.max?_eq_some_iff.1 hd
  refine ⟨a, b, c, d, ?_, q1.1, q2.1, q3.1, q4.1, fun x hx => ⟨q1.2 x hx, q2.2 x hx⟩,
    fun x hx => ⟨q3.2 x hx, q4.2 x hx⟩⟩
  unfold extent
  rw [ha, hb, hc, hd]

/-- C117: on a regular grid the spacing is the step in longitude and latitude, without sign. -/
theorem spacing_regular (x0 dx y0 dy : ℚ) (n m : ℕ) (hn : 2 ≤ n) (hm : 2 ≤ m) :
    spacing ((List.range n).map fun k : ℕ => x0 + k * dx) ((List.range m).map fun k : ℕ => y0 + k * dy) = .ok (|dx|, |dy|) := by
  obtain ⟨n, rfl⟩ := Nat.exists_eq_add_of_le' hn
  obtain ⟨m, rfl⟩ := Nat.exists_eq_add_of_le' hm
  have e : ∀ (k : ℕ) (a d : ℚ), (List.range (k + 2)).map (fun i : ℕ => a + i * d) =
      a :: (a + d) :: (List.range k).map fun i : ℕ => a + ((i + 2 : ℕ) : ℚ) * d := by
    intro k a d
    rw [List.range_succ_eq_map, List.range_succ_eq_map]
    simp only [List.map_cons, List.map_map, Function.comp_def, Nat.succ_eq_add_one]
    norm_num [add_assoc]
  rw [e, e]
  unfold spacing
  simp

/-- C117: with a single row or column there is no spacing. -/
theorem spacing_single (x : ℚ) (lat : List ℚ) : spacing [x] lat = .error .index := by
  unfold spacing
  split
  · rename_i h; simp at h
  · rfl

/-! ## Dictionaries -/

/-- C117: an object made of a dictionary with data has exactly its arrays, and its mask marks exactly the cells that are NaN or the
fill value; these get the fill value, in the errors as well. -/
theorem fromDict_spec (x e : List (Option ℚ)) (f : Option ℚ) (o : Obj) (d : Dict) (hf : o.fill = some f) (hx : d.data = some (.array x))
    (he : d.error = some (.array e)) (hl : e.length = x.length) :
    ∃ r mask y z, fromDict o d = .ok r ∧ r.mask = some mask ∧ r.data = some y ∧ r.error = some z ∧ r.fill = some f ∧
      r.root = d.attributes ∧ r.lon = setKey o.lon d.lon ∧ r.lat = setKey o.lat d.lat ∧ r.time = setKey o.time d.time ∧
      r.month = setKey o.month d.month ∧ mask.length = x.length ∧ y.length = x.length ∧ z.length = x.length ∧
      ∀ (k : ℕ) v w, x[k]? = some v → e[k]? = some w →
        (mask[k]? = some true ↔ v = none ∨ (v = f)) ∧
        y[k]? = some (if v = none ∨ v = f then f else v) ∧ z[k]? = some (if v = none ∨ v = f then f else w) := by
  have hm : ∀ v : Option ℚ, (eqFill f v || v.isNone) = decide (v = none ∨ v = f) := by
    intro v
    cases v with
    | none => simp
    | some q =>
      cases f with
      | none => simp [eqFill]
      | some g => simp [eqFill]
  set mask := x.map fun v => eqFill f v || v.isNone with hmask
  set y := List.zipWith (fun v b => if b then f else v) x mask with hy
  set z := List.zipWith (fun v b => if b then f else v) e mask with hz
  refine ⟨⟨setKey o.lon d.lon, setKey o.lat d.lat, setKey o.time d.time, setKey o.month d.month, some y, some z, some mask, some f,
    d.attributes⟩, mask, y, z, ?_, rfl, rfl, rfl, ?_, ?_, ?_, ?_, ?_, ?_, ?_, ?_, ?_, ?_⟩
  · unfold fromDict
    simp only [hx, he, setKey, hf]
    rw [if_pos hl]
  · rfl
  · rfl
  · rfl
  · rfl
  · rfl
  · rfl
  · simp [hmask]
  · simp [hy, hmask]
  · simp [hz, hmask, hl]
  · intro k v w hv hw
    have h1 : (x.map fun v => eqFill f v || v.isNone)[k]? = some (decide (v = none ∨ v = f)) := by
      rw [List.getElem?_map, hv, Option.map_some, hm]
    refine ⟨by rw [h1]; simp, ?_, ?_⟩
    · rw [List.getElem?_zipWith, hv, h1]; simp
    · rw [List.getElem?_zipWith, hw, h1]; simp

/-- C117: without fill value nothing is masked, and the data are kept as they are, NaN included. -/
theorem fromDict_noFill (x : List (Option ℚ)) (o : Obj) (d : Dict) (hf : o.fill = none) (hx : d.data = some (.array x)) :
    ∃ r, fromDict o d = .ok r ∧ r.data = some x ∧ r.mask = some (x.map fun _ => false) ∧ r.error = setKey o.error d.error := by
  refine ⟨⟨setKey o.lon d.lon, setKey o.lat d.lat, setKey o.time d.time, setKey o.month d.month, some x, setKey o.error d.error,
    some (x.map fun _ => false), none, d.attributes⟩, ?_, rfl, rfl, rfl⟩
  unfold fromDict
  simp only [hx, setKey, hf]

/-- C117 (negative): the mask in the dictionary has no effect. -/
theorem fromDict_mask (o : Obj) (d : Dict) (m : Option (Entry Bool)) : fromDict o { d with mask := m } = fromDict o d := rfl

/-- C117 (negative): what the dictionary does not have stays from the object's earlier use: the arrays of the axes and dates, and the
data with them. -/
theorem fromDict_stale (o : Obj) (d : Dict) (r : Obj) (h : fromDict o d = .ok r) :
    (d.lon = none → r.lon = o.lon) ∧ (d.lat = none → r.lat = o.lat) ∧ (d.time = none → r.time = o.time) ∧
    (d.month = none → r.month = o.month) := by
  have key : r.lon = setKey o.lon d.lon ∧ r.lat = setKey o.lat d.lat ∧ r.time = setKey o.time d.time ∧ r.month = setKey o.month d.month := by
    unfold fromDict at h
    simp only at h
    split at h
    · simp only [Except.ok.injEq] at h; rw [← h]; exact ⟨rfl, rfl, rfl, rfl⟩
    · simp at h
    · simp only [Except.ok.injEq] at h; rw [← h]; exact ⟨rfl, rfl, rfl, rfl⟩
    · split at h
      · simp only [Except.ok.injEq] at h; rw [← h]; exact ⟨rfl, rfl, rfl, rfl⟩
      · split at h
        · simp only [Except.ok.injEq] at h; rw [← h]; exact ⟨rfl, rfl, rfl, rfl⟩
        · simp at h
  obtain ⟨k1, k2, k3, k4⟩ := key
  refine ⟨fun e => ?_, fun e => ?_, fun e => ?_, fun e => ?_⟩
  · rw [k1, e]; rfl
  · rw [k2, e]; rfl
  · rw [k3, e]; rfl
  · rw [k4, e]; rfl

/-- C117 (negative): an object with fill value that had errors of another grid raises when it is made of a dictionary without. -/
theorem fromDict_stale_error (x e : List (Option ℚ)) (f : Option ℚ) (o : Obj) (d : Dict) (hf : o.fill = some f)
    (hx : d.data = some (.array x)) (he : d.error = none) (ho : o.error = some e) (hl : e.length ≠ x.length) :
    fromDict o d = .error .index := by
  unfold fromDict
  simp only [hx, he, setKey, hf, ho]
  rw [if_neg hl]

/-- C117: a dictionary without data makes a new object with fill value raise, and without it an object without data. -/
theorem fromDict_noData (o : Obj) (d : Dict) (h : d.data = none) (ho : o.data = none) :
    (o.fill ≠ none → fromDict o d = .error .type) ∧ (o.fill = none → ∃ r, fromDict o d = .ok r ∧ r.data = none) := by
  constructor
  · intro hf
    obtain ⟨f, hf⟩ := Option.ne_none_iff_exists'.1 hf
    unfold fromDict; simp only [h, setKey, ho, hf]
  · intro hf
    refine ⟨⟨setKey o.lon d.lon, setKey o.lat d.lat, setKey o.time d.time, setKey o.month d.month, none, setKey o.error d.error,
      some [], none, d.attributes⟩, ?_, rfl⟩
    unfold fromDict; simp only [h, setKey, ho, hf]

/-! ## Examples -/

example : harmonicsStr toString 60 30 (.list [4, 7, 5]) =
    .ok ["gravity_toolkit.harmonics", "    max_degree: 60", "    max_order: 30", "    start_month: 4", "    end_month: 7"] := by rfl
example : geocenterStr toString (.arr [4, 5]) = .error .value := by rfl
example : len (.arr [4, 5]) = .ok 2 := by rfl
example : extent [0, 90, 180] [45, -45] = .ok [0, 180, -45, 45] := by rfl
example : spacing [0, 90, 180] [45, -45] = .ok (90, 90) := by
  simp only [spacing]; norm_num [abs]
example : (fromDict { fill := some (some (-1)) } { data := some (.array [some 2, none, some (-1)]), error := some (.array [some 1, some 1, some 1]) }).toOption =
    some { fill := some (some (-1)), data := some [some 2, some (-1), some (-1)], error := some [some 1, some (-1), some (-1)],
           mask := some [false, true, true] } := by decide +kernel

end Verif.Describe
