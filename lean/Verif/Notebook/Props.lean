import Verif.Notebook.Model
import Mathlib.Data.List.Induction

/-!
# C124: widgets of the notebooks
-/
namespace Verif.Notebook

/-! ## Degree and order -/

/-- degree and order in their bounds, the order not above the degree -/
def Truncated (L : ℤ) (s : State) : Prop :=
  s.lmax.max = L ∧ s.mmax.max = s.lmax.value ∧ 0 ≤ s.mmax.value ∧ s.mmax.value ≤ s.lmax.value ∧ s.lmax.value ≤ L

theorem menus_same (s : State) (e : Event) (h : (∀ v, e ≠ .degree v) ∧ ∀ v, e ≠ .order v) :
    (step s e).lmax = s.lmax ∧ (step s e).mmax = s.mmax := by
  cases e with
  | degree v => exact absurd rfl (h.1 v)
  | order v => exact absurd rfl (h.2 v)
  | pick fs => simp only [step, setLabel]; split <;> exact ⟨rfl, rfl⟩
  | label t => simp only [step, setLabel]; split <;> exact ⟨rfl, rfl⟩
  | center m => exact ⟨rfl, rfl⟩
  | release m => exact ⟨rfl, rfl⟩
  | product m => exact ⟨rfl, rfl⟩
  | tickPoleTide b => exact ⟨rfl, rfl⟩
  | tickAtm b => exact ⟨rfl, rfl⟩

theorem step_truncated (L : ℤ) (hL : 0 ≤ L) (s : State) (e : Event) (h : Truncated L s) : Truncated L (step s e) := by
  have keep : ∀ e : Event, ((∀ v, e ≠ .degree v) ∧ ∀ v, e ≠ .order v) → Truncated L (step s e) := by
    intro e he
    obtain ⟨e1, e2⟩ := menus_same s e he
    unfold Truncated
    rw [e1, e2]
    exact h
  obtain ⟨h1, h2, h3, h4, h5⟩ := h
  cases e with
  | degree v =>
    by_cases hv : (s.lmax.set v).value = s.lmax.value
    · have e : step s (.degree v) = { s with lmax := s.lmax.set v } := if_pos hv
      rw [e]
      exact ⟨h1, h2.trans hv.symm, h3, h4.trans_eq hv.symm, hv.trans_le h5⟩
    · have e : step s (.degree v) = setMaxOrder { s with lmax := s.lmax.set v } := if_neg hv
      rw [e]
      simp only [setMaxOrder, Bounded.set, Bounded.bound, Truncated]
      refine ⟨h1, trivial, ?_, ?_, ?_⟩ <;> omega
  | order v =>
    simp only [step, Bounded.set, Truncated]
    refine ⟨h1, h2, ?_, ?_, h5⟩ <;> omega
  | pick fs => exact keep _ (by simp)
  | label t => exact keep _ (by simp)
  | center m => exact keep _ (by simp)
  | release m => exact keep _ (by simp)
  | product m => exact keep _ (by simp)
  | tickPoleTide b => exact keep _ (by simp)
  | tickAtm b => exact keep _ (by simp)

/-- **C124** whatever is done, degree and order stay between zero and the default degree and the order does not exceed the degree -/
theorem order_le_degree (m : Menus) (L : ℤ) (hL : 0 ≤ L) (es : List Event) :
    let s := run (start m L) es
    0 ≤ s.mmax.value ∧ s.mmax.value ≤ s.lmax.value ∧ s.lmax.value ≤ L := by
  have : Truncated L (run (start m L) es) := by
    induction es using List.reverseRecOn with
    | nil => exact ⟨rfl, rfl, hL, le_refl _, le_refl _⟩
    | append_singleton es e ih =>
      have : run (start m L) (es ++ [e]) = step (run (start m L) es) e := by simp [run]
      rw [this]
      exact step_truncated L hL _ e ih
  exact ⟨this.2.2.1, this.2.2.2.1, this.2.2.2.2⟩

/-- **C124** a new degree sets the order to the degree; a new order leaves the degree -/
theorem degree_sets_order (m : Menus) (L : ℤ) (hL : 0 ≤ L) (es : List Event) (v : ℤ) (h0 : 0 ≤ v) (hv : v ≤ L) :
    let s := run (start m L) es
    (step s (.degree v)).lmax.value = v ∧
      (v ≠ s.lmax.value → (step s (.degree v)).mmax.value = v) ∧
      (v ≤ s.lmax.value → (step s (.order v)).mmax.value = v ∧ (step s (.order v)).lmax = s.lmax) := by
  intro s
  have ht : Truncated L s := by
    show Truncated L (run (start m L) es)
    induction es using List.reverseRecOn with
    | nil => exact ⟨rfl, rfl, hL, le_refl _, le_refl _⟩
    | append_singleton es e ih =>
      have : run (start m L) (es ++ [e]) = step (run (start m L) es) e := by simp [run]
      rw [this]
      exact step_truncated L hL _ e ih
  clear_value s
  obtain ⟨h1, h2, h3, h4, h5⟩ := ht
  have hset : (s.lmax.set v).value = v := by simp only [Bounded.set]; omega
  refine ⟨?_, fun hne => ?_, fun hle => ⟨?_, rfl⟩⟩
  · by_cases hv' : (s.lmax.set v).value = s.lmax.value
    · have e : step s (.degree v) = { s with lmax := s.lmax.set v } := if_pos hv'
      rw [e]; exact hset
    · have e : step s (.degree v) = setMaxOrder { s with lmax := s.lmax.set v } := if_neg hv'
      rw [e]; exact hset
  · have e : step s (.degree v) = setMaxOrder { s with lmax := s.lmax.set v } := if_neg (by rw [hset]; exact hne)
    rw [e]
    simp only [setMaxOrder, Bounded.set, Bounded.bound]
    omega
  · simp only [step, Bounded.set]
    omega

/-- **C124** any number given for the degree is brought between zero and the default degree, any number for the order between zero
and the degree, and a degree that is already shown leaves the order alone -/
theorem numbers_bounded (m : Menus) (L : ℤ) (hL : 0 ≤ L) (es : List Event) (v : ℤ) :
    let s := run (start m L) es
    (step s (.degree v)).lmax.value = (if v < 0 then 0 else if L < v then L else v) ∧
      (step s (.order v)).mmax.value = (if v < 0 then 0 else if s.lmax.value < v then s.lmax.value else v) ∧
      (step s (.degree s.lmax.value)).mmax = s.mmax := by
  intro s
  have ht : Truncated L s := by
    show Truncated L (run (start m L) es)
    induction es using List.reverseRecOn with
    | nil => exact ⟨rfl, rfl, hL, le_refl _, le_refl _⟩
    | append_singleton es e ih =>
      have : run (start m L) (es ++ [e]) = step (run (start m L) es) e := by simp [run]
      rw [this]
      exact step_truncated L hL _ e ih
  clear_value s
  obtain ⟨h1, h2, h3, h4, h5⟩ := ht
  have hd : ∀ v, (step s (.degree v)).lmax = s.lmax.set v := by
    intro v
    simp only [step]
    split <;> rfl
  refine ⟨?_, ?_, ?_⟩
  · rw [hd]
    simp only [Bounded.set]
    split_ifs <;> omega
  · simp only [step, Bounded.set]
    split_ifs <;> omega
  · have e : step s (.degree s.lmax.value) = { s with lmax := s.lmax.set s.lmax.value } :=
      if_pos (by simp only [Bounded.set]; omega)
    rw [e]

/-! ## Files to be removed -/

/-- all names picked in a dialog so far are texts with at least one character -/
def Named (es : List Event) : Prop := ∀ fs, Event.pick fs ∈ es → ∀ f ∈ fs, f ≠ []

theorem intercalate_ne (f : Str) (fs : List Str) (hf : f ≠ []) : [','].intercalate (f :: fs) ≠ [] := by
  cases fs with
  | nil => simpa [List.intercalate] using hf
  | cons g r => simp [List.intercalate, List.intersperse]

theorem filesOf_labelOf (fs : List Str) (hc : ∀ f ∈ fs, ',' ∉ f) (hn : ∀ f ∈ fs, f ≠ []) : filesOf (labelOf fs) = fs := by
  unfold filesOf labelOf
  cases fs with
  | nil => rfl
  | cons f r =>
    rw [if_neg (intercalate_ne f r (hn f (by simp)))]
    exact List.splitOn_intercalate ',' hc (by simp)

theorem labelOf_filesOf (t : Str) : labelOf (filesOf t) = t := by
  unfold filesOf labelOf
  split
  · rename_i h; rw [h]; rfl
  · exact List.intercalate_splitOn ','

/-- **C124** after any history of texts typed and files picked, the list of files is what the text names, and the text is the list
joined by commas -/
theorem files_match (m : Menus) (L : ℤ) (es : List Event) (h : Named es) :
    let s := run (start m L) es
    s.files = filesOf s.label ∧ s.label = labelOf s.files := by
  intro s
  suffices hs : s.files = filesOf s.label from ⟨hs, by rw [hs, labelOf_filesOf]⟩
  show (run (start m L) es).files = _
  induction es using List.reverseRecOn with
  | nil => rfl
  | append_singleton es e ih =>
    have ih := ih fun fs hfs => h fs (List.mem_append_left _ hfs)
    have : run (start m L) (es ++ [e]) = step (run (start m L) es) e := by simp [run]
    have hs : s = step (run (start m L) es) e := this
    rw [this, hs]
    generalize run (start m L) es = s0 at ih
    cases e with
    | degree v => simp only [step]; split <;> exact ih
    | pick fs =>
      simp only [step, setLabel]
      split
      · rename_i hl
        simp only at hl ⊢
        cases fs with
        | nil => simpa using ih
        | cons f r =>
          exfalso
          have hf := h (f :: r) (by simp) f (by simp)
          have e0 : s0.label = labelOf s0.files := by rw [ih, labelOf_filesOf]
          rw [e0] at hl
          have hlen := congrArg List.length hl
          unfold labelOf at hlen
          cases hs0 : s0.files with
          | nil =>
            rw [hs0] at hl
            exact intercalate_ne f r hf hl
          | cons g t =>
            rw [hs0] at hlen
            have key : ∀ (g : Str) (t : List Str), ([','].intercalate (g :: t)).length <
                ([','].intercalate (g :: t ++ f :: r)).length := by
              intro g t
              induction t generalizing g with
              | nil => simp [List.intercalate, List.intersperse]
              | cons x t ih2 =>
                have := ih2 x
                simp only [List.intercalate, List.cons_append, List.intersperse, List.flatten_cons, List.length_append, List.length_cons, List.nil_append] at this ⊢
                omega
            exact absurd hlen (by have := key g t; omega)
      · rfl
    | label t =>
      simp only [step, setLabel]
      split
      · exact ih
      · rfl
    | order v => exact ih
    | center m => exact ih
    | release m => exact ih
    | product m => exact ih
    | tickPoleTide b => exact ih
    | tickAtm b => exact ih

theorem no_comma (t : Str) : ∀ f ∈ t.splitOn ',', ',' ∉ f := by
  induction t with
  | nil => simp
  | cons c t ih =>
    rw [List.splitOn_cons_eq_if_modifyHead]
    split
    · intro f hf
      rcases List.mem_cons.1 hf with rfl | hf
      · simp
      · exact ih f hf
    · rename_i hc
      have hc' : c ≠ ',' := by simpa using hc
      generalize t.splitOn ',' = l at ih
      cases l with
      | nil => simp
      | cons x r =>
        intro f hf
        simp only [List.modifyHead_cons, List.mem_cons] at hf
        rcases hf with rfl | hf
        · intro h
          rcases List.mem_cons.1 h with h | h
          · exact hc' h.symm
          · exact ih x (by simp) h
        · exact ih f (by simp [hf])

/-- **C124** picked files are added to the list, in order, if no name has a comma -/
theorem pick_adds (m : Menus) (L : ℤ) (es : List Event) (h : Named es) (fs : List Str) (hf : ∀ f ∈ fs, f ≠ [] ∧ ',' ∉ f)
    (hold : ∀ f ∈ (run (start m L) es).files, f ≠ []) :
    (run (start m L) (es ++ [.pick fs])).files = (run (start m L) es).files ++ fs := by
  obtain ⟨h1, h2⟩ := files_match m L es h
  have : run (start m L) (es ++ [.pick fs]) = step (run (start m L) es) (.pick fs) := by simp [run]
  rw [this]
  generalize run (start m L) es = s0 at h1 h2 hold
  have hcomma : ∀ f ∈ s0.files, ',' ∉ f := by
    rw [h1]
    unfold filesOf
    split
    · simp
    · exact fun f hf => no_comma _ f hf
  simp only [step, setLabel]
  split
  · rfl
  · refine filesOf_labelOf _ ?_ ?_ <;> (intro f hf'; rcases List.mem_append.1 hf' with x | x)
    · exact hcomma f x
    · exact (hf f x).2
    · exact hold f x
    · exact (hf f x).1

/-- **C124** a name with a comma becomes the names of two files -/
theorem comma_splits (m : Menus) (L : ℤ) :
    (run (start m L) [.pick ["a,b".toList]]).files = ["a".toList, "b".toList] := by
  have : labelOf ["a,b".toList] = "a,b".toList := by decide +kernel
  have h2 : filesOf "a,b".toList = ["a".toList, "b".toList] := by decide +kernel
  simp only [run, List.foldl_cons, List.foldl_nil, step, setLabel, start, List.nil_append, this]
  rw [if_neg (by decide +kernel), h2]

/-! ## Menus -/

/-- **C124** every center and release offered together have the product GSM, and the default product is taken exactly if it is offered -/
theorem products_offered (c r d : String) (hc : c ∈ centers) (hr : r ∈ releases c) :
    ∃ ps, products c r = .ok ps ∧ "GSM" ∈ ps ∧ ps ≠ [] ∧ (d ∈ ps → setProduct c r d = .ok (ps, d)) ∧
      (d ∉ ps → setProduct c r d = .error .trait) := by
  have key : ∃ ps, products c r = .ok ps ∧ "GSM" ∈ ps := by
    simp only [centers, List.mem_cons, List.not_mem_nil, or_false] at hc
    rcases hc with rfl | rfl | rfl | rfl
    · exact ⟨_, rfl, by decide⟩
    · exact ⟨_, rfl, by decide⟩
    · exact ⟨_, rfl, by decide⟩
    · simp only [releases, if_true, List.mem_cons, List.not_mem_nil, or_false] at hr
      rcases hr with rfl | rfl | rfl | rfl | rfl <;> exact ⟨_, rfl, by decide⟩
  obtain ⟨ps, h1, h2⟩ := key
  refine ⟨ps, h1, h2, List.ne_nil_of_mem h2, fun h => ?_, fun h => ?_⟩ <;> simp [setProduct, h1, h]

/-- **C124** the newest release is chosen with a new center, and with the default product GSM the menus agree: the months are those
of the center, release and product shown -/
theorem settled_agrees (find : String → String → String → List ℕ) (m : Menus) (v : String) :
    (v ∈ centers → ∃ m', settled find "GSM" m .center v = .ok m' ∧ m'.center = v ∧
      m'.release = (if v = "CNES" then "RL05" else "RL06") ∧ m'.product = "GSM" ∧ m'.months = find m'.center m'.release m'.product) ∧
    (m.center ∈ centers → v ∈ releases m.center → ∃ m', settled find "GSM" m .release v = .ok m' ∧ m'.center = m.center ∧
      m'.release = v ∧ m'.product = "GSM" ∧ m'.months = find m'.center m'.release m'.product) := by
  constructor
  · intro h
    simp only [centers, List.mem_cons, List.not_mem_nil, or_false] at h
    rcases h with rfl | rfl | rfl | rfl
    · exact ⟨⟨"CSR", "RL06", "GSM", find "CSR" "RL06" "GSM"⟩, rfl, rfl, rfl, rfl, rfl⟩
    · exact ⟨⟨"GFZ", "RL06", "GSM", find "GFZ" "RL06" "GSM"⟩, rfl, rfl, rfl, rfl, rfl⟩
    · exact ⟨⟨"JPL", "RL06", "GSM", find "JPL" "RL06" "GSM"⟩, rfl, rfl, rfl, rfl, rfl⟩
    · exact ⟨⟨"CNES", "RL05", "GSM", find "CNES" "RL05" "GSM"⟩, rfl, rfl, rfl, rfl, rfl⟩
  · intro hc hv
    obtain ⟨ps, -, h2, -, h4, -⟩ := products_offered m.center v "GSM" hc hv
    refine ⟨⟨m.center, v, "GSM", find m.center v "GSM"⟩, ?_, rfl, rfl, rfl, rfl⟩
    simp only [settled, h4 h2]

/-- **C124** a new product leaves the months of the product before -/
theorem product_keeps_months (find : String → String → String → List ℕ) (d v : String) (m : Menus) :
    settled find d m .product v = .ok { m with product := v } ∧
      (m.months = find m.center m.release m.product → find m.center m.release v ≠ find m.center m.release m.product →
        ∃ m', settled find d m .product v = .ok m' ∧ m'.months ≠ find m'.center m'.release m'.product) :=
  ⟨rfl, fun h hne => ⟨_, rfl, fun h' => hne (h'.symm.trans h)⟩⟩

/-- **C124** the degrees of the data that the degree should be set to, if centers were compared by their names -/
theorem degree_table : (centers.flatMap fun c => (releases c).map fun r => (maxDegree (fun t => c == t) r).toOption) =
    [some 60, some 60, some 60, some 90, some 90, some 60, some 60, some 60, some 60, some 50, some 50, some 80, some 90, some 90] := by
  decide +kernel

/-- **C124** but with a widget no name is equal: whatever center and release, a new release or product ends with an exception -/
theorem observers_raise (s : State) : (releaseObservers s).2 = some .unbound ∧ (productObservers s).2 = some .unbound :=
  ⟨rfl, rfl⟩

/-- **C124** so the boxes for pole tide and atmosphere, and the bound of the degree, never follow the release: they stay as for the
release at the start unless they are ticked -/
theorem boxes_stay (m : Menus) (L : ℤ) (es : List Event) (h1 : ∀ b, Event.tickPoleTide b ∉ es) (h2 : ∀ b, Event.tickAtm b ∉ es) :
    let s := run (start m L) es
    s.poleTide = (decide (m.release = "RL05") && decide (m.product = "GSM")) ∧ s.atm = decide (m.release = "RL05") := by
  show (run (start m L) es).poleTide = _ ∧ (run (start m L) es).atm = _
  induction es using List.reverseRecOn with
  | nil => exact ⟨rfl, rfl⟩
  | append_singleton es e ih =>
    have ih := ih (fun b hb => h1 b (List.mem_append_left _ hb)) fun b hb => h2 b (List.mem_append_left _ hb)
    have : run (start m L) (es ++ [e]) = step (run (start m L) es) e := by simp [run]
    rw [this]
    generalize run (start m L) es = s0 at ih
    cases e with
    | degree v => simp only [step]; split <;> exact ih
    | pick fs => simp only [step, setLabel]; split <;> exact ih
    | label t => simp only [step, setLabel]; split <;> exact ih
    | order v => exact ih
    | center m => exact ih
    | release m => exact ih
    | product m => exact ih
    | tickPoleTide b => exact absurd (by simp) (h1 b)
    | tickAtm b => exact absurd (by simp) (h2 b)

/-! ## The hypotheses can be met -/

/-- a start -/
def exampleMenus : Menus := ⟨"CSR", "RL06", "GSM", [4, 5]⟩

example : (run (start exampleMenus 60) [.degree 40, .order 30, .pick ["a".toList], .label "a,b".toList, .degree 50]).mmax.value = 50 := by
  decide +kernel

example : Named [.pick ["a".toList], .label [','], .pick []] := by
  intro fs h
  simp at h
  rcases h with rfl | rfl <;> decide

example : exampleMenus.center ∈ centers ∧ "RL05" ∈ releases exampleMenus.center := by decide

end Verif.Notebook
