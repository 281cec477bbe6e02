import Verif.GeoFile.Header

/-!
# Lemmas: reading the whole header
-/
namespace Verif.GeoFile
open Verif.SLR Verif.SpatialIO Verif.HarmIO Verif.MeanField

/-- signatures of the lines above the references -/
def sigA : List ((ℕ × Bool × Bool) × Option Line) :=
  let e (i : ℕ) (n : String) : (ℕ × Bool × Bool) × Option Line := ((i, false, false), some n.toList)
  let b (i : ℕ) (n : String) : (ℕ × Bool × Bool) × Option Line := ((i, false, true), some n.toList)
  [b 2 "dimensions", e 4 "degree", e 4 "order", b 2 "non-standard_attributes", b 4 "love_number", e 6 "long_name", e 6 "value",
    e 4 "formatting_string", b 2 "global_attributes", e 4 "title", e 4 "summary", e 4 "project", e 4 "keywords",
    e 4 "keywords_vocabulary", e 4 "history", e 4 "source", e 4 "processing_level", e 4 "acknowledgement",
    e 4 "product_version", b 4 "references"]

/-- signatures of the lines between the references and the variables -/
def sigB : List ((ℕ × Bool × Bool) × Option Line) :=
  let e (i : ℕ) (n : String) : (ℕ × Bool × Bool) × Option Line := ((i, false, false), some n.toList)
  [e 4 "creator_name", e 4 "creator_email", e 4 "creator_url", e 4 "creator_type", e 4 "creator_institution",
    e 4 "time_coverage_start", e 4 "time_coverage_end", e 4 "date_created"]

/-- the lines between the first line and the variables -/
def middle (f : Info) (first last : ℤ) : List Line :=
  printHeader.drop 1 ++ (printHarmonic f.kl ++ printGlobal f first last)

theorem headerLines_eq (f : Info) (first last : ℤ) :
    headerLines f first last = head 0 0 "header" :: (middle f first last ++ printVariables) := by
  unfold headerLines middle
  simp [printHeader]

/-- the line with the address of the page has a colon -/
theorem reads_url {ls : List Line} {S} (hs : Reads ls S) :
    Reads (field 4 22 "creator_url" "https://www.ess.uci.edu/~velicogna/index.html".toList :: ls)
      (((4, false, false), some "creator_url".toList) :: S) := by
  obtain ⟨N, h1, h2⟩ := hs
  have hp : parseLine (field 4 22 "creator_url" "https://www.ess.uci.edu/~velicogna/index.html".toList) =
      some (some ⟨4, false, some "creator_url".toList, "https://www.ess.uci.edu/~velicogna/index.html".toList⟩) := by
    decide +kernel
  refine ⟨_, mapM_cons' _ _ _ _ _ hp h1, ?_⟩
  rw [filterMap_some, List.map_cons, h2]
  rfl

theorem reads_lit (i w : ℕ) (name : String) (t : Line) (hw : w ≤ 100) (hn : nameOk name.toList = true)
    (h1 : startOk t = true) (h2 : decide (Plain t) = true)
    {ls : List Line} {S} (hs : Reads ls S) : Reads (field i w name t :: ls) (((i, false, false), some name.toList) :: S) :=
  reads_field i w name t hw (nameOk_of _ hn) (textOk_self _ h1 (plain_lit _ h2)) hs

/-- the lines between the first line and the variables are read -/
theorem reads_middle (f : Info) (h : Texts f) (first last : ℤ)
    (hr : ∀ r ∈ references f, ∃ k v, parseLine (item r) = some (some ⟨6, true, k, v⟩)) :
    Reads (middle f first last)
      (sigA ++ (List.replicate (references f).length ((6, true, false), none) ++ sigB)) := by
  have hB : Reads ([field 4 22 "creator_name" "Tyler C. Sutterley and Isabella Velicogna".toList,
    field 4 22 "creator_email" "tsutterl@uw.edu and isabella@uci.edu".toList,
    field 4 22 "creator_url" "https://www.ess.uci.edu/~velicogna/index.html".toList,
    field 4 22 "creator_type" "group".toList,
    field 4 22 "creator_institution" "University of Washington; University of California, Irvine".toList,
    field 4 22 "time_coverage_start" (monthText first), field 4 22 "time_coverage_end" (monthText last),
    field 4 22 "date_created" (dayText f.today), []]) sigB := by
    refine reads_lit _ _ _ _ (by decide) (by decide +kernel) (by decide +kernel) (by decide +kernel) ?_
    refine reads_lit _ _ _ _ (by decide) (by decide +kernel) (by decide +kernel) (by decide +kernel) ?_
    refine reads_url ?_
    refine reads_lit _ _ _ _ (by decide) (by decide +kernel) (by decide +kernel) (by decide +kernel) ?_
    refine reads_lit _ _ _ _ (by decide) (by decide +kernel) (by decide +kernel) (by decide +kernel) ?_
    refine reads_field _ _ _ _ (by decide) (nameOk_of _ (by decide +kernel)) (textOk_month _) ?_
    refine reads_field _ _ _ _ (by decide) (nameOk_of _ (by decide +kernel)) (textOk_month _) ?_
    refine reads_field _ _ _ _ (by decide) (nameOk_of _ (by decide +kernel)) (textOk_day _) ?_
    exact reads_blank reads_nil
  have hI := reads_items (references f) hr
  have hA : Reads (printHeader.drop 1 ++ (printHarmonic f.kl ++ [head 2 0 "global_attributes",
    field 4 22 "title" (mission ++ " Geocenter Coefficients ".toList ++ f.PROC ++ ' ' :: f.DREL),
    field 4 22 "summary" (summary f (f.MODEL.map fun c => if c = '_' then ' ' else c)), field 4 22 "project" (project f.DREL),
    field 4 22 "keywords" (keywords f.DREL),
    field 4 22 "keywords_vocabulary" "NASA Global Change Master Directory (GCMD) Science Keywords".toList,
    field 4 22 "history" (mission ++ " Level-3 Data created at UC Irvine".toList),
    field 4 22 "source" (source f (f.MODEL.map fun c => if c = '_' then ' ' else c)), field 4 22 "processing_level" "3".toList,
    field 4 22 "acknowledgement" (acknowledgement f.DREL),
    field 4 22 "product_version" ("Release-".toList ++ f.DREL.drop 2), head 4 22 "references"])) sigA := by
    simp only [printHeader, printHarmonic, List.drop_succ_cons, List.drop_zero, List.cons_append, List.nil_append]
    refine reads_head _ _ _ (by decide) (nameOk_of _ (by decide +kernel)) ?_
    refine reads_lit _ _ _ _ (by decide) (by decide +kernel) (by decide +kernel) (by decide +kernel) ?_
    refine reads_lit _ _ _ _ (by decide) (by decide +kernel) (by decide +kernel) (by decide +kernel) ?_
    refine reads_blank ?_
    refine reads_head _ _ _ (by decide) (nameOk_of _ (by decide +kernel)) ?_
    refine reads_head _ _ _ (by decide) (nameOk_of _ (by decide +kernel)) ?_
    refine reads_lit _ _ _ _ (by decide) (by decide +kernel) (by decide +kernel) (by decide +kernel) ?_
    refine reads_field _ _ _ _ (by decide) (nameOk_of _ (by decide +kernel)) (textOk_kl _) ?_
    refine reads_lit _ _ _ _ (by decide) (by decide +kernel) (by decide +kernel) (by decide +kernel) ?_
    refine reads_blank ?_
    refine reads_head _ _ _ (by decide) (nameOk_of _ (by decide +kernel)) ?_
    refine reads_field _ _ _ _ (by decide) (nameOk_of _ (by decide +kernel)) (textOk_title f h) ?_
    refine reads_field _ _ _ _ (by decide) (nameOk_of _ (by decide +kernel)) (textOk_summary f h) ?_
    refine reads_field _ _ _ _ (by decide) (nameOk_of _ (by decide +kernel)) (textOk_project _) ?_
    refine reads_field _ _ _ _ (by decide) (nameOk_of _ (by decide +kernel)) (textOk_keywords _) ?_
    refine reads_lit _ _ _ _ (by decide) (by decide +kernel) (by decide +kernel) (by decide +kernel) ?_
    refine reads_lit _ _ _ _ (by decide) (by decide +kernel) (by decide +kernel) (by decide +kernel) ?_
    refine reads_field _ _ _ _ (by decide) (nameOk_of _ (by decide +kernel)) (textOk_source f h) ?_
    refine reads_lit _ _ _ _ (by decide) (by decide +kernel) (by decide +kernel) (by decide +kernel) ?_
    refine reads_field _ _ _ _ (by decide) (nameOk_of _ (by decide +kernel)) (textOk_ack _) ?_
    refine reads_field _ _ _ _ (by decide) (nameOk_of _ (by decide +kernel)) (textOk_version f h) ?_
    exact reads_head _ _ _ (by decide) (nameOk_of _ (by decide +kernel)) reads_nil
  have := reads_append hA (reads_append hI hB)
  unfold middle printGlobal
  simp only [List.append_assoc] at this ⊢
  exact this

/-- the lines of the variables -/
def varNodes : List Node := (printVariables.map parseLine).filterMap fun x => x.join

theorem reads_variables : (printVariables ++ [endMark]).mapM parseLine = some (varNodes.map some ++ [none, none, none]) := by
  decide +kernel

/-- a list of items does not change the open blocks -/
theorem nested_items (n : ℕ) (st : List (ℕ × Bool)) (rest : List (ℕ × Bool × Bool)) :
    nested ((6, true) :: st) false (List.replicate n (6, true, false) ++ rest) = nested ((6, true) :: st) false rest := by
  induction n with
  | zero => rfl
  | succ k ih =>
    rw [List.replicate_succ, List.cons_append]
    conv_lhs => unfold nested
    simpa using ih

theorem nested_append_A (rest : List (ℕ × Bool × Bool)) :
    nested [] true ((0, false, true) :: (sigA.map Prod.fst ++ rest)) = nested [(4, false), (2, false), (0, false)] true rest := by
  simp only [sigA, List.map_cons, List.map_nil, List.cons_append, List.nil_append]
  simp [nested]

theorem nested_ok (n : ℕ) :
    nested [] true ((0, false, true) :: (sigA.map Prod.fst ++ (List.replicate (n + 1) (6, true, false) ++
      (sigB.map Prod.fst ++ varNodes.map Node.shape)))) = true := by
  rw [nested_append_A, List.replicate_succ, List.cons_append]
  have e : ∀ rest, nested [(4, false), (2, false), (0, false)] true ((6, true, false) :: rest) =
      nested [(6, true), (4, false), (2, false), (0, false)] false rest := by
    intro rest
    conv_lhs => unfold nested
    simp
  rw [e, nested_items n [(4, false), (2, false), (0, false)] (sigB.map Prod.fst ++ varNodes.map Node.shape)]
  decide +kernel

theorem takeWhile_all {A : Type} (p : A → Bool) : ∀ l : List A, (∀ x ∈ l, p x = true) → l.takeWhile p = l
  | [], _ => rfl
  | x :: l, h => by
    rw [List.takeWhile_cons, if_pos (h x (by simp)), takeWhile_all p l fun y hy => h y (by simp [hy])]

/-- **the header as it is written is read**: names and comments of the variables -/
theorem variables_of_header (f : Info) (h : Texts f) (first last : ℤ)
    (hr : ∀ r ∈ references f, ∃ k v, parseLine (item r) = some (some ⟨6, true, k, v⟩)) :
    variablesOf (headerLines f first last ++ [endMark]) = some Verif.GeoRead.uciVariables := by
  obtain ⟨N, hN, hsig⟩ := reads_middle f h first last hr
  have h0 : parseLine (head 0 0 "header") = some (some ⟨0, false, some "header".toList, []⟩) := by decide +kernel
  have hall : (headerLines f first last ++ [endMark]).mapM parseLine =
      some (some ⟨0, false, some "header".toList, []⟩ :: (N ++ (varNodes.map some ++ [none, none, none]))) := by
    rw [headerLines_eq, List.cons_append, List.append_assoc]
    exact mapM_cons' _ _ _ _ _ h0 (mapM_append' _ _ _ _ _ hN reads_variables)
  obtain ⟨A, hA⟩ : ∃ A, A = N.filterMap id := ⟨_, rfl⟩
  rw [← hA] at hsig
  have hvn : (varNodes.map some ++ [none, none, none] : List (Option Node)).filterMap id = varNodes := by
    rw [List.filterMap_append]
    simp
  have hshape : A.map Node.shape = sigA.map Prod.fst ++ (List.replicate (references f).length (6, true, false) ++ sigB.map Prod.fst) := by
    have := congrArg (List.map Prod.fst) hsig
    rw [List.map_map, List.map_append, List.map_append, List.map_replicate] at this
    exact this
  obtain ⟨n, hn⟩ : ∃ n, (references f).length = n + 1 := ⟨(references f).length - 1, by unfold references; simp⟩
  have hdoc : yaml (headerLines f first last ++ [endMark]) =
      some (⟨0, false, some "header".toList, []⟩ :: (A ++ varNodes)) := by
    unfold yaml
    rw [hall, Option.bind_some]
    dsimp only
    rw [filterMap_some, List.filterMap_append, hvn, ← hA, if_pos]
    rw [List.map_cons, List.map_append, hshape, hn]
    have := nested_ok n
    simpa [Node.shape, List.append_assoc] using this
  -- indentation and keys of the lines in the middle
  have hmem : ∀ m ∈ A, 0 < m.indent ∧ (m.indent == 2 && m.key == some "variables".toList && !m.seq) = false := by
    intro m hm
    have : sig m ∈ sigA ++ (List.replicate (references f).length ((6, true, false), none) ++ sigB) := by
      rw [← hsig]; exact List.mem_map_of_mem hm
    have hcase : sig m ∈ sigA ++ sigB ∨ sig m = ((6, true, false), none) := by
      rcases List.mem_append.1 this with h | h
      · exact Or.inl (List.mem_append_left _ h)
      · rcases List.mem_append.1 h with h | h
        · exact Or.inr (List.eq_of_mem_replicate h)
        · exact Or.inl (List.mem_append_right _ h)
    rcases hcase with h | h
    · have key : ∀ s ∈ sigA ++ sigB, 0 < s.1.1 ∧ s.1.2.1 = false ∧ (s.1.1 == 2 && s.2 == some "variables".toList) = false := by
        decide +kernel
      obtain ⟨k1, k2, k3⟩ := key _ h
      have k2' : m.seq = false := k2
      refine ⟨k1, ?_⟩
      have k3' : (m.indent == 2 && (if m.seq then none else m.key) == some "variables".toList) = false := k3
      rw [k2'] at k3'
      rw [k2']
      simpa using k3'
    · have k1 : m.indent = 6 := congrArg (fun s => s.1.1) h
      rw [k1]
      exact ⟨by decide, rfl⟩
  have hV : ∀ m ∈ varNodes, 0 < m.indent := by decide +kernel
  have hunder : under "header".toList (⟨0, false, some "header".toList, []⟩ :: (A ++ varNodes)) = some (A ++ varNodes) := by
    unfold under
    dsimp only
    rw [List.dropWhile_cons_of_neg (by simp)]
    simp only [List.isEmpty_nil, if_true]
    rw [takeWhile_all]
    intro m hm
    rcases List.mem_append.1 hm with h | h
    · simpa using (hmem m h).1
    · simpa using hV m h
  have hfirst : ∃ a r, A = a :: r ∧ a.indent = 2 := by
    cases hA' : A with
    | nil => rw [hA'] at hsig; simp [sigA] at hsig
    | cons a r =>
      refine ⟨a, r, rfl, ?_⟩
      rw [hA'] at hsig
      have h1 := congrArg (fun l => (l.head?).map fun s => s.1.1) hsig
      simpa [sig, Node.shape, sigA] using h1
  obtain ⟨v0, vs, hv, hv0⟩ : ∃ v0 vs, varNodes = v0 :: vs ∧ v0 = ⟨2, false, some "variables".toList, []⟩ :=
    ⟨⟨2, false, some "variables".toList, []⟩, varNodes.tail, by decide +kernel, rfl⟩
  have hvs : vs = varNodes.tail := by rw [hv]; rfl
  have hunder2 : under "variables".toList (A ++ varNodes) = some vs := by
    obtain ⟨a, r, ha, hi⟩ := hfirst
    have : under "variables".toList (A ++ varNodes) =
        (match (A ++ varNodes).dropWhile fun m => !(m.indent == 2 && m.key == some "variables".toList && !m.seq) with
        | [] => none
        | m :: rest => if m.value.isEmpty then some (rest.takeWhile fun m => decide (2 < m.indent)) else none) := by
      rw [ha, List.cons_append]
      simp only [under, hi]
      rfl
    rw [this, List.dropWhile_append_of_pos (by
      intro m hm
      have := (hmem m hm).2
      rw [this]; rfl), hv, List.dropWhile_cons_of_neg (by rw [hv0]; decide +kernel)]
    simp only [hv0, List.isEmpty_nil, if_true]
    rw [takeWhile_all]
    rw [hvs]
    decide +kernel
  unfold variablesOf
  simp only [hdoc, hunder, hunder2, Option.bind_eq_bind, Option.bind_some]
  rw [hvs]
  decide +kernel

end Verif.GeoFile
