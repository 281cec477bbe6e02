import Verif.GeoFile.Doc
import Verif.GeoFile.Hash
import Verif.GeoFile.MonteModel

/-!
# Lemmas: reading the header of the Monte Carlo files
-/
namespace Verif.GeoFile
open Verif.SLR Verif.SpatialIO Verif.HarmIO Verif.MeanField

/-- the line that opens the variables -/
def varHead : Node := ⟨2, false, some "variables".toList, []⟩

/-- names and comments under the variables -/
def columnsOf (vars : List Node) : Option (List (String × List Char)) :=
  match vars with
  | [] => none
  | n :: _ =>
    (vars.filter fun m => m.indent == n.indent).mapM fun m => do
      let k ← m.key
      let block ← under k vars
      let c ← scalarAt "comment".toList block
      some (String.ofList k, c)

theorem variables_of_sections (f : Info) (h : Texts f) (first last : ℤ)
    (hr : ∀ r ∈ references f, ∃ k v, parseLine (item r) = some (some ⟨6, true, k, v⟩)) (vl : List Line) (vs : List Node)
    (out : List (String × List Char))
    (reads : (vl ++ [endMark]).mapM parseLine = some ((varHead :: vs).map some ++ [none, none, none]))
    (nest : nested [(6, true), (4, false), (2, false), (0, false)] false
      (sigB.map Prod.fst ++ (varHead :: vs).map Node.shape) = true)
    (deep : ∀ m ∈ vs, 2 < m.indent) (columns : columnsOf vs = some out) :
    variablesOf (head 0 0 "header" :: (middle f first last ++ vl) ++ [endMark]) = some out := by
  obtain ⟨N, hN, hsig⟩ := reads_middle f h first last hr
  have h0 : parseLine (head 0 0 "header") = some (some ⟨0, false, some "header".toList, []⟩) := by decide +kernel
  have hall : (head 0 0 "header" :: (middle f first last ++ vl) ++ [endMark]).mapM parseLine =
      some (some ⟨0, false, some "header".toList, []⟩ :: (N ++ ((varHead :: vs).map some ++ [none, none, none]))) := by
    rw [List.cons_append, List.append_assoc]
    exact mapM_cons' _ _ _ _ _ h0 (mapM_append' _ _ _ _ _ hN reads)
  obtain ⟨A, hA⟩ : ∃ A, A = N.filterMap id := ⟨_, rfl⟩
  rw [← hA] at hsig
  have hvn : ((varHead :: vs).map some ++ [none, none, none] : List (Option Node)).filterMap id = (varHead :: vs) := by
    rw [List.filterMap_append]
    simp
  have hshape : A.map Node.shape = sigA.map Prod.fst ++ (List.replicate (references f).length (6, true, false) ++ sigB.map Prod.fst) := by
    have := congrArg (List.map Prod.fst) hsig
    rw [List.map_map, List.map_append, List.map_append, List.map_replicate] at this
    exact this
  obtain ⟨n, hn⟩ : ∃ n, (references f).length = n + 1 := ⟨(references f).length - 1, by unfold references; simp⟩
  have hdoc : yaml (head 0 0 "header" :: (middle f first last ++ vl) ++ [endMark]) =
      some (⟨0, false, some "header".toList, []⟩ :: (A ++ (varHead :: vs))) := by
    unfold yaml
    rw [hall, Option.bind_some]
    dsimp only
    rw [filterMap_some, List.filterMap_append, hvn, ← hA, if_pos]
    rw [List.map_cons, List.map_append, hshape, hn]
    have e : ∀ rest, nested [(4, false), (2, false), (0, false)] true ((6, true, false) :: rest) =
        nested [(6, true), (4, false), (2, false), (0, false)] false rest := by
      intro rest
      conv_lhs => unfold nested
      simp
    have := nested_append_A (List.replicate (n + 1) (6, true, false) ++ (sigB.map Prod.fst ++ (varHead :: vs).map Node.shape))
    rw [List.replicate_succ, List.cons_append, e, nested_items n _ (sigB.map Prod.fst ++ (varHead :: vs).map Node.shape),
      nest] at this
    simpa [Node.shape, List.append_assoc, List.replicate_succ] using this
  -- indentation and keys of the lines in the middle
  have hmem : ∀ m ∈ A, 0 < m.indent ∧ (m.indent == 2 && m.key == some "variables".toList && !m.seq) = false := by
    intro m hm
    have : sig m ∈ sigA ++ (List.replicate (references f).length ((6, true, false), none) ++ sigB) := by
      rw [← hsig]; exact List.mem_map_of_mem hm
    have hcase : sig m ∈ sigA ++ sigB ∨ sig m = ((6, true, false), none) := by
      rcases List.mem_append.1 this with h | h
      · exact Or.inl (List.mem_append_left _ h)
      · rcases List.mem_append.1 h with h | h
        · exact Or.inr (List.eq_of_mem_replicate h)
        · exact Or.inl (List.mem_append_right _ h)
    rcases hcase with h | h
    · have key : ∀ s ∈ sigA ++ sigB, 0 < s.1.1 ∧ s.1.2.1 = false ∧ (s.1.1 == 2 && s.2 == some "variables".toList) = false := by
        decide +kernel
      obtain ⟨k1, k2, k3⟩ := key _ h
      have k2' : m.seq = false := k2
      refine ⟨k1, ?_⟩
      have k3' : (m.indent == 2 && (if m.seq then none else m.key) == some "variables".toList) = false := k3
      rw [k2'] at k3'
      rw [k2']
      simpa using k3'
    · have k1 : m.indent = 6 := congrArg (fun s => s.1.1) h
      rw [k1]
      exact ⟨by decide, rfl⟩
  have hV : ∀ m ∈ varHead :: vs, 0 < m.indent := by
    intro m hm
    rcases List.mem_cons.1 hm with rfl | h
    · decide
    · exact (by decide : 0 < 2).trans (deep m h)
  have hunder : under "header".toList (⟨0, false, some "header".toList, []⟩ :: (A ++ (varHead :: vs))) = some (A ++ (varHead :: vs)) := by
    unfold under
    dsimp only
    rw [List.dropWhile_cons_of_neg (by simp)]
    simp only [List.isEmpty_nil, if_true]
    rw [takeWhile_all]
    intro m hm
    rcases List.mem_append.1 hm with h | h
    · simpa using (hmem m h).1
    · simpa using hV m h
  have hfirst : ∃ a r, A = a :: r ∧ a.indent = 2 := by
    cases hA' : A with
    | nil => rw [hA'] at hsig; simp [sigA] at hsig
    | cons a r =>
      refine ⟨a, r, rfl, ?_⟩
      rw [hA'] at hsig
      have h1 := congrArg (fun l => (l.head?).map fun s => s.1.1) hsig
      simpa [sig, Node.shape, sigA] using h1
  have hunder2 : under "variables".toList (A ++ (varHead :: vs)) = some vs := by
    obtain ⟨a, r, ha, hi⟩ := hfirst
    have : under "variables".toList (A ++ (varHead :: vs)) =
        (match (A ++ (varHead :: vs)).dropWhile fun m => !(m.indent == 2 && m.key == some "variables".toList && !m.seq) with
        | [] => none
        | m :: rest => if m.value.isEmpty then some (rest.takeWhile fun m => decide (2 < m.indent)) else none) := by
      rw [ha, List.cons_append]
      simp only [under, hi]
      rfl
    rw [this, List.dropWhile_append_of_pos (by
      intro m hm
      have := (hmem m hm).2
      rw [this]; rfl), List.dropWhile_cons_of_neg (by decide +kernel)]
    simp only [varHead, List.isEmpty_nil, if_true]
    rw [takeWhile_all]
    intro m hm
    simpa using deep m hm
  unfold variablesOf
  simp only [hdoc, hunder, hunder2, Option.bind_eq_bind, Option.bind_some]
  exact columns

/-- the lines of the variables -/
def mcNodes : List Node := (mcVariables.map parseLine).filterMap fun x => x.join

theorem mcNodes_cons : mcNodes = varHead :: mcNodes.tail := by decide +kernel

theorem reads_mc : (mcVariables ++ [endMark]).mapM parseLine = some (mcNodes.map some ++ [none, none, none]) := by
  decide +kernel

theorem mc_nest : nested [(6, true), (4, false), (2, false), (0, false)] false
    (sigB.map Prod.fst ++ mcNodes.map Node.shape) = true := by decide +kernel

theorem mc_deep : ∀ m ∈ mcNodes.tail, 2 < m.indent := by decide +kernel

/-- names and comments of the variables in the header -/
def mcColumns : List (String × List Char) :=
  [("mid-epoch_time", "1st column".toList), ("C10", "2nd column".toList), ("C11", "3rd column".toList),
    ("S11", "4th column".toList), ("eC10", "5th column".toList), ("eC11", "6th column".toList),
    ("eS11", "7th column".toList), ("month", "8th column".toList)]

theorem mc_columns : columnsOf mcNodes.tail = some mcColumns := by decide +kernel

/-- the facts without the restored dealiasing -/
def Info.bare (f : Info) : Info := { f with AOD := false }

theorem mcHeader_eq (f : Info) (first last : ℤ) :
    mcHeader f first last = head 0 0 "header" :: (middle f.bare first last ++ mcVariables) := by
  unfold mcHeader middle Info.bare
  simp [printHeader]

theorem bare_texts (f : Info) (h : Texts f) : Texts f.bare := ⟨h.PROC, h.DREL, h.MODEL, h.citation⟩

/-- the header as it is written is read -/
theorem variables_of_mc (f : Info) (h : Texts f) (first last : ℤ)
    (hr : ∀ r ∈ references f.bare, ∃ k v, parseLine (item r) = some (some ⟨6, true, k, v⟩)) :
    variablesOf (mcHeader f first last ++ [endMark]) = some mcColumns := by
  rw [mcHeader_eq]
  exact variables_of_sections f.bare (bare_texts f h) first last hr mcVariables mcNodes.tail mcColumns
    (by rw [← mcNodes_cons]; exact reads_mc) (by rw [← mcNodes_cons]; exact mc_nest) mc_deep mc_columns

theorem noHash_mc (f : Info) (h : Texts f) (first last : ℤ) (hr : ∀ c ∈ orNone f.reference, c ≠ '#') :
    NoHash (mcHeader f first last) := by
  have h1 : NoHash (head 0 0 "header" :: middle f.bare first last) := by
    intro l hl
    refine noHash_header f.bare (bare_texts f h) first last hr l ?_
    rw [headerLines_eq]
    rcases List.mem_cons.1 hl with h | h
    · exact List.mem_cons.2 (Or.inl h)
    · exact List.mem_cons_of_mem _ (List.mem_append_left _ h)
  rw [mcHeader_eq]
  exact noHash_append h1 (noHash_lit _ (by decide +kernel))

end Verif.GeoFile
