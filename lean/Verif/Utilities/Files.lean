import Verif.Utilities.Model
import Mathlib.Tactic.Linarith
import Mathlib.Data.Nat.Digits.Lemmas
import Mathlib.Data.List.Perm.Basic

/-!
# Unique files, downloads, listings and queries (C46, C48, C49)
-/
namespace Verif.Utilities

/-! ## create_unique_file -/

theorem stemSuffix_append (name : Str) : (stemSuffix name).1 ++ (stemSuffix name).2 = name := by
  unfold stemSuffix
  have hall : (name.reverse.dropWhile (· ≠ '.')).reverse ++ (name.reverse.takeWhile (· ≠ '.')).reverse = name := by
    rw [← List.reverse_append, List.takeWhile_append_dropWhile, List.reverse_reverse]
  dsimp only
  split
  · rename_i h
    have hne : name.reverse.dropWhile (· ≠ '.') ≠ [] := by
      intro h0; rw [h0] at h; simp at h
    have hlast : ∃ b, (name.reverse.dropWhile (· ≠ '.')).reverse = b ++ ['.'] := by
      cases hd : name.reverse.dropWhile (· ≠ '.') with
      | nil => exact absurd hd hne
      | cons c t =>
        have := List.head?_dropWhile_not (fun c => decide (c ≠ '.')) name.reverse
        rw [hd] at this
        simp at this
        exact ⟨t.reverse, by simp [this]⟩
    obtain ⟨b, hb⟩ := hlast
    rw [hb, List.dropLast_concat]
    rw [hb] at hall
    simpa using hall
  · simp

/-- different attempts use different names -/
theorem uniqueName_inj (name : Str) (j k : ℕ) (h : uniqueName name j = uniqueName name k) : j = k := by
  have hlen : ∀ n, n ≠ 0 → uniqueName name n ≠ name := by
    intro n hn h
    have := congrArg List.length h
    rw [uniqueName, if_neg hn] at this
    have h2 := congrArg List.length (stemSuffix_append name)
    simp only [List.length_append, List.length_cons] at this h2
    omega
  by_cases hj : j = 0
  · subst hj
    by_contra hk
    exact hlen k (fun h0 => hk h0.symm) (by rw [← h]; rfl)
  · by_cases hk : k = 0
    · subst hk
      exact absurd (by rw [h]; rfl) (hlen j hj)
    · rw [uniqueName, uniqueName, if_neg hj, if_neg hk] at h
      rw [List.append_assoc, List.append_assoc, List.append_cancel_left_eq, List.cons_append, List.cons_append,
        List.cons.injEq, List.append_cancel_right_eq] at h
      have := congrArg (fun d => Nat.ofDigitChars 10 d 0) h.2
      simpa [Nat.ofDigitChars_toDigits (b := 10) (by omega) (by omega)] using this

theorem uniqueLoop_from (canOpen : Str → Bool) (name : Str) (n : ℕ) (hn : canOpen (uniqueName name n) = true)
    (hlt : ∀ j, j < n → canOpen (uniqueName name j) = false) (fuel k : ℕ) (hk : k ≤ n) (hf : n - k < fuel) :
    uniqueLoop canOpen name fuel k = some n := by
  induction fuel generalizing k with
  | zero => omega
  | succ f ih =>
    rw [uniqueLoop]
    by_cases he : k = n
    · subst he; rw [if_pos hn]
    · rw [hlt k (by omega)]
      simp only [Bool.false_eq_true, if_false]
      exact ih (k + 1) (by omega) (by omega)

/-- **C46** run alone in a directory with finitely many of the names taken, it returns the requested name if it
is free, else the one with the smallest free counter -/
theorem createUnique_smallest (files : FS) (name : Str) (h : ∃ n, files (uniqueName name n) = none) :
    ∃ n, files (uniqueName name n) = none ∧ (∀ j, j < n → files (uniqueName name j) ≠ none) ∧
      ∀ fuel, n < fuel → uniqueLoop (fun p => (files p).isNone) name fuel 0 = some n := by
  classical
  refine ⟨Nat.find h, Nat.find_spec h, fun j hj => Nat.find_min h hj, fun fuel hf => ?_⟩
  refine uniqueLoop_from _ name (Nat.find h) ?_ ?_ fuel 0 (by omega) (by omega)
  · rw [Nat.find_spec h]; rfl
  · intro j hj
    have := Nat.find_min h hj
    cases hx : files (uniqueName name j) with
    | none => exact absurd hx this
    | some b => rfl

/-- **C46** a directory with finitely many files always has a free name, so the loop ends -/
theorem createUnique_terminates (files : FS) (name : Str) (taken : List Path)
    (h : ∀ p, files p ≠ none → p ∈ taken) : ∃ n, files (uniqueName name n) = none := by
  by_contra hcon
  push Not at hcon
  have hsub : ((List.range (taken.length + 1)).map (uniqueName name)) ⊆ taken := by
    intro p hp
    obtain ⟨n, _, rfl⟩ := List.mem_map.1 hp
    exact h _ (hcon n)
  have hnd : ((List.range (taken.length + 1)).map (uniqueName name)).Nodup :=
    List.Nodup.map (fun a b hab => uniqueName_inj name a b hab) List.nodup_range
  have := (hnd.subperm hsub).length_le
  simp at this

/-- **C46** (a defect) when the directory is missing or not writable every attempt is an `OSError` and the loop
never ends -/
theorem createUnique_forever (name : Str) (fuel k : ℕ) : uniqueLoop (fun _ => false) name fuel k = none := by
  induction fuel generalizing k with
  | zero => rfl
  | succ f ih => rw [uniqueLoop]; simpa using ih (k + 1)

example : uniqueName "log.txt".toList 0 = "log.txt".toList ∧ uniqueName "log.txt".toList 12 = "log_12.txt".toList ∧
    uniqueName ".profile".toList 1 = ".profile_1".toList := by decide +kernel

section
variable {ι : Type} [DecidableEq ι]

/-- **C46** a step of a caller changes no existing file: it creates an empty file under an absent name or does
nothing -/
theorem step_preserves (req : ι → Str) (w w' : World ι) (s : Step req w w') (henv : w'.caller ≠ w.caller) (p : Path)
    (b : Bytes) (hp : w.files p = some b) : w'.files p = some b := by
  cases s with
  | create i k hi hf =>
    have hne : p ≠ uniqueName (req i) k := by intro h; rw [h, hf] at hp; exact absurd hp (by simp)
    simp [Function.update_of_ne hne, hp]
  | next i k hi hf => exact hp
  | env f h => exact absurd rfl henv

/-- **C46** whatever the interleaving of any number of callers and other processes creating files, no two
callers get the same path, and the path each one gets did not exist before and is one of its candidate
names -/
theorem createUnique_distinct (req : ι → Str) (w0 w : World ι) (h0 : ∀ i, w0.caller i = .trying 0)
    (hr : Reach req w0 w) :
    (∀ i j p q, w.caller i = .done p → w.caller j = .done q → i ≠ j → p ≠ q) ∧
    (∀ i p, w.caller i = .done p → w0.files p = none ∧ (∃ k, p = uniqueName (req i) k)) := by
  -- invariant: finished callers hold distinct existing paths that were absent at the start
  have inv : (∀ p, w0.files p ≠ none → w.files p ≠ none) ∧
      (∀ i p, w.caller i = .done p → w.files p ≠ none ∧ w0.files p = none ∧ ∃ k, p = uniqueName (req i) k) ∧
      (∀ i j p q, w.caller i = .done p → w.caller j = .done q → i ≠ j → p ≠ q) := by
    induction hr with
    | refl =>
      refine ⟨fun p h => h, fun i p h => ?_, fun i j p q h => ?_⟩
      · rw [h0 i] at h; exact absurd h (by simp)
      · rw [h0 i] at h; exact absurd h (by simp)
    | tail hr s ih =>
      obtain ⟨i1, i2, i3⟩ := ih
      cases s with
      | create i k hi hf =>
        refine ⟨fun p hp => ?_, fun a p ha => ?_, fun a b p q ha hb hab => ?_⟩
        · dsimp only
          by_cases he : p = uniqueName (req i) k
          · subst he; simp
          · rw [Function.update_of_ne he]; exact i1 p hp
        · dsimp only at ha ⊢
          by_cases hai : a = i
          · subst hai
            rw [Function.update_self] at ha
            have hp : uniqueName (req a) k = p := by injection ha
            subst hp
            refine ⟨by simp, ?_, k, rfl⟩
            by_contra hcon
            exact i1 _ hcon hf
          · rw [Function.update_of_ne hai] at ha
            obtain ⟨h1, h2, h3⟩ := i2 a p ha
            refine ⟨?_, h2, h3⟩
            by_cases he : p = uniqueName (req i) k
            · subst he; simp
            · rw [Function.update_of_ne he]; exact h1
        · dsimp only at ha hb
          by_cases hai : a = i
          · subst hai
            rw [Function.update_self] at ha
            rw [Function.update_of_ne (Ne.symm hab)] at hb
            have hp : uniqueName (req a) k = p := by injection ha
            intro hpq
            exact (i2 b q hb).1 (by rw [← hpq, ← hp]; exact hf)
          · rw [Function.update_of_ne hai] at ha
            by_cases hbi : b = i
            · subst hbi
              rw [Function.update_self] at hb
              have hq : uniqueName (req b) k = q := by injection hb
              intro hpq
              exact (i2 a p ha).1 (by rw [hpq, ← hq]; exact hf)
            · rw [Function.update_of_ne hbi] at hb
              exact i3 a b p q ha hb hab
      | next i k hi hf =>
        refine ⟨i1, fun a p ha => ?_, fun a b p q ha hb hab => ?_⟩
        · dsimp only at ha
          by_cases hai : a = i
          · subst hai; rw [Function.update_self] at ha; exact absurd ha (by simp)
          · rw [Function.update_of_ne hai] at ha; exact i2 a p ha
        · dsimp only at ha hb
          by_cases hai : a = i
          · subst hai; rw [Function.update_self] at ha; exact absurd ha (by simp)
          · by_cases hbi : b = i
            · subst hbi; rw [Function.update_self] at hb; exact absurd hb (by simp)
            · rw [Function.update_of_ne hai] at ha
              rw [Function.update_of_ne hbi] at hb
              exact i3 a b p q ha hb hab
      | env f h =>
        refine ⟨fun p hp => h p (i1 p hp), fun a p ha => ?_, i3⟩
        obtain ⟨h1, h2, h3⟩ := i2 a p ha
        exact ⟨h p h1, h2, h3⟩
  exact ⟨inv.2.2, fun i p h => (inv.2.1 i p h).2⟩

/-- two processes asking for the same name: one gets it, the other the next one -/
example : ∃ w, Reach (ι := Bool) (fun _ => "a.txt".toList)
    ⟨fun _ => none, fun _ => .trying 0⟩ w ∧ w.caller true = .done "a.txt".toList ∧
      w.caller false = .done "a_1.txt".toList := by
  refine ⟨_, ((Reach.refl.tail (Step.create _ true 0 rfl rfl)).tail (Step.next _ false 0 rfl ?_)).tail
    (Step.create _ false 1 rfl ?_), ?_, ?_⟩
  · simp
  · decide +kernel
  · decide +kernel
  · decide +kernel
end

/-! ## downloads -/

theorem written_all (chunk : ℕ) (hc : 0 < chunk) (remote : Bytes) : written chunk remote (chunks chunk remote) = remote := by
  unfold written chunks
  apply List.take_of_length_le
  have h := Nat.div_add_mod (remote.length + chunk - 1) chunk
  have h2 := Nat.mod_lt (remote.length + chunk - 1) hc
  rw [Nat.mul_comm]
  omega

/-- **C48** what a download does: the buffer is the remote file; the local file is written, with the remote
contents, exactly if a local path is given and the expected hash differs; no other file changes -/
theorem download_spec (H : Bytes → String) (chunk : ℕ) (hc : 0 < chunk) (remote : Bytes) (loc : Option Path)
    (hash : String) (fs : FS) :
    (download H chunk remote loc hash fs).1 = remote ∧
    (∀ p, loc = some p → hash ≠ H remote → (download H chunk remote loc hash fs).2 p = some remote) ∧
    (∀ p, loc = some p → hash = H remote → (download H chunk remote loc hash fs).2 = fs) ∧
    (loc = none → (download H chunk remote loc hash fs).2 = fs) ∧
    (∀ q, loc ≠ some q → (download H chunk remote loc hash fs).2 q = fs q) := by
  refine ⟨rfl, ?_, ?_, ?_, ?_⟩
  · rintro p rfl h
    simp only [download, downloadCrash, if_pos h, Function.update_self, written_all chunk hc]
  · rintro p rfl h
    simp [download, downloadCrash, h]
  · rintro rfl; rfl
  · intro q hq
    cases loc with
    | none => rfl
    | some p =>
      have hne : q ≠ p := fun h => hq (by rw [h])
      simp only [download, downloadCrash]
      split <;> simp [Function.update_of_ne hne]

/-- **C48** the usage of the download scripts — compare with the hash of the local file — leaves the local file
equal to the remote one whenever the hash tells them apart, and then a second run writes nothing -/
theorem download_sync (H : Bytes → String) (hH : ∀ b, H b ≠ "") (chunk : ℕ) (hc : 0 < chunk) (remote : Bytes)
    (p : Path) (fs : FS) (hdistinct : ∀ b, fs p = some b → H b = H remote → b = remote) :
    (download H chunk remote (some p) (getHash H fs p) fs).2 p = some remote ∧
    (download H chunk remote (some p)
      (getHash H (download H chunk remote (some p) (getHash H fs p) fs).2 p)
      (download H chunk remote (some p) (getHash H fs p) fs).2).2 =
      (download H chunk remote (some p) (getHash H fs p) fs).2 := by
  have h1 : (download H chunk remote (some p) (getHash H fs p) fs).2 p = some remote := by
    by_cases he : getHash H fs p = H remote
    · rw [(download_spec H chunk hc remote (some p) _ fs).2.2.1 p rfl he]
      unfold getHash at he
      cases hb : fs p with
      | none => rw [hb] at he; exact absurd he.symm (hH remote)
      | some b => rw [hb] at he; rw [hdistinct b hb he]
    · exact (download_spec H chunk hc remote (some p) _ fs).2.1 p rfl he
  refine ⟨h1, ?_⟩
  apply (download_spec H chunk hc remote (some p) _ _).2.2.1 p rfl
  generalize (download H chunk remote (some p) (getHash H fs p) fs).2 = fs' at h1
  unfold getHash
  rw [h1]

/-- **C48** interrupted at any point of the local write, the file holds a leading part of the remote contents
(the previous contents are lost), no other file is touched, and running again with the hash of what is there
completes the file, provided the hash tells the part from the whole -/
theorem download_crash (H : Bytes → String) (hH : ∀ b, H b ≠ "") (chunk : ℕ) (hc : 0 < chunk) (remote : Bytes)
    (p : Path) (hash : String) (hh : hash ≠ H remote) (j : ℕ) (fs : FS)
    (hdistinct : ∀ b, b <+: remote → H b = H remote → b = remote) :
    (∃ b, b <+: remote ∧ downloadCrash H chunk remote (some p) hash j fs p = some b) ∧
    (∀ q, q ≠ p → downloadCrash H chunk remote (some p) hash j fs q = fs q) ∧
    (download H chunk remote (some p) (getHash H (downloadCrash H chunk remote (some p) hash j fs) p)
      (downloadCrash H chunk remote (some p) hash j fs)).2 p = some remote := by
  have hp : downloadCrash H chunk remote (some p) hash j fs p = some (written chunk remote j) := by
    simp only [downloadCrash, if_pos hh, Function.update_self]
  have hpre : written chunk remote j <+: remote := List.take_prefix _ _
  refine ⟨⟨_, hpre, hp⟩, ?_, ?_⟩
  · intro q hq
    simp only [downloadCrash, if_pos hh, Function.update_of_ne hq]
  · refine (download_sync H hH chunk hc remote p _ ?_).1
    intro b hb hHb
    rw [hp, Option.some.injEq] at hb
    subst hb
    exact hdistinct _ hpre hHb

example : (download (fun b => "h" ++ toString b.length) 2 [1, 2, 3, 4, 5] (some ['x']) "" (fun _ => none)).2 ['x'] =
    some [1, 2, 3, 4, 5] := by decide +kernel

/-- **C48** `copy`: the destination gets the source's contents, other files are unchanged, and the source stays
unless it is a move -/
theorem copyFile_spec (src dst : Path) (move : Bool) (fs fs' : FS) (h : copyFile src dst move fs = some fs') :
    (∃ b, fs src = some b ∧ fs' dst = some b) ∧ src ≠ dst ∧ (∀ p, p ≠ src → p ≠ dst → fs' p = fs p) ∧
    fs' src = if move then none else fs src := by
  unfold copyFile at h
  split at h
  · exact absurd h (by simp)
  · rename_i b hb
    split at h
    · exact absurd h (by simp)
    · rename_i hne
      rw [Option.some.injEq] at h
      subst h
      refine ⟨⟨b, hb, ?_⟩, hne, fun p h1 h2 => ?_, ?_⟩
      · cases move <;> simp [Function.update_of_ne (Ne.symm hne)]
      · cases move <;> simp [Function.update_of_ne h1, Function.update_of_ne h2]
      · cases move <;> simp [Function.update_of_ne hne]

/-! ## listings -/

theorem pick_eq {A : Type} (idx : List ℕ) (l : List A) (f : ℕ → A) (h : ∀ i ∈ idx, l[i]? = some (f i)) :
    pick idx l = some (idx.map f) := by
  unfold pick
  induction idx with
  | nil => rfl
  | cons a t ih =>
    rw [List.mapM_cons, h a (by simp), ih fun i hi => h i (by simp [hi])]
    rfl

section
variable {N T : Type} [LinearOrder N]

omit [LinearOrder N] in
/-- reading both lists at the same positions is reading the paired list -/
theorem pick_pair (idx : List ℕ) (names : List N) (mtimes : List T) (hlen : names.length = mtimes.length)
    (hidx : ∀ i ∈ idx, i < names.length) :
    ∃ l : List (N × T), pick idx names = some (l.map Prod.fst) ∧ pick idx mtimes = some (l.map Prod.snd) ∧
      l = idx.filterMap fun i => (names.zip mtimes)[i]? := by
  induction idx with
  | nil => exact ⟨[], rfl, rfl, rfl⟩
  | cons a t ih =>
    obtain ⟨l, h1, h2, h3⟩ := ih fun i hi => hidx i (by simp [hi])
    have ha := hidx a (by simp)
    have ha2 : a < mtimes.length := by omega
    refine ⟨(names[a], mtimes[a]) :: l, ?_, ?_, ?_⟩
    · unfold pick at h1 ⊢
      rw [List.mapM_cons, List.getElem?_eq_getElem ha, h1]; rfl
    · unfold pick at h2 ⊢
      rw [List.mapM_cons, List.getElem?_eq_getElem ha2, h2]; rfl
    · rw [List.filterMap_cons, List.getElem?_eq_getElem (by simp; omega), h3]
      simp

theorem filterMap_range_filter {A : Type} (l : List A) (p : A → Bool) :
    ((List.range l.length).filter fun i => (l[i]?.map p).getD false).filterMap (fun i => l[i]?) = l.filter p := by
  induction l using List.reverseRecOn with
  | nil => rfl
  | append_singleton l a ih =>
    have hlen : (l ++ [a]).length = l.length + 1 := by simp
    rw [hlen, List.range_succ, List.filter_append, List.filterMap_append, List.filter_append, ← ih]
    congr 1
    · rw [List.filterMap_filter, List.filterMap_filter]
      apply List.filterMap_congr
      intro i hi
      rw [List.mem_range] at hi
      rw [List.getElem?_append_left hi]
    · by_cases hp : p a = true
      · simp [hp]
      · simp [hp]

theorem filterMap_range {A : Type} (l : List A) : (List.range l.length).filterMap (fun i => l[i]?) = l := by
  induction l using List.reverseRecOn with
  | nil => rfl
  | append_singleton l a ih =>
    have hlen : (l ++ [a]).length = l.length + 1 := by simp
    rw [hlen, List.range_succ, List.filterMap_append]
    congr 1
    · conv_rhs => rw [← ih]
      apply List.filterMap_congr
      intro i hi
      rw [List.mem_range] at hi
      rw [List.getElem?_append_left hi]
    · simp

omit [LinearOrder N] in
theorem listing_filter_pair (p : N → Bool) (names : List N) (mtimes : List T) (hlen : names.length = mtimes.length) :
    pick ((List.range names.length).filter fun i => (names[i]?.map p).getD false) names =
      some (((names.zip mtimes).filter fun q => p q.1).map Prod.fst) ∧
    pick ((List.range names.length).filter fun i => (names[i]?.map p).getD false) mtimes =
      some (((names.zip mtimes).filter fun q => p q.1).map Prod.snd) := by
  obtain ⟨l, h1, h2, h3⟩ := pick_pair ((List.range names.length).filter fun i => (names[i]?.map p).getD false)
    names mtimes hlen (by intro i hi; simpa using (List.mem_filter.1 hi).1)
  have he : l = (names.zip mtimes).filter fun q => p q.1 := by
    rw [h3, ← filterMap_range_filter (names.zip mtimes) fun q => p q.1]
    congr 1
    have hz : (names.zip mtimes).length = names.length := by simp [hlen]
    rw [hz]
    apply List.filter_congr
    intro i hi
    rw [List.mem_range] at hi
    have hi2 : i < mtimes.length := by omega
    rw [List.getElem?_eq_getElem hi, List.getElem?_eq_getElem (by simp; omega)]
    simp
  rw [← he]
  exact ⟨h1, h2⟩

theorem listing_sort_pair (names : List N) (mtimes : List T) (hlen : names.length = mtimes.length) :
    ∃ l : List (N × T), l.Perm (names.zip mtimes) ∧ (l.map Prod.fst).Pairwise (· ≤ ·) ∧
      pick ((List.insertionSort (fun a b => a.2 ≤ b.2) ((List.range names.length).zip names)).map Prod.fst) names =
        some (l.map Prod.fst) ∧
      pick ((List.insertionSort (fun a b => a.2 ≤ b.2) ((List.range names.length).zip names)).map Prod.fst) mtimes =
        some (l.map Prod.snd) := by
  set S := List.insertionSort (fun a b : ℕ × N => a.2 ≤ b.2) ((List.range names.length).zip names) with hS
  have hperm : S.Perm ((List.range names.length).zip names) := List.perm_insertionSort _ _
  have hpermI : (S.map Prod.fst).Perm (List.range names.length) := by
    have := hperm.map Prod.fst
    rwa [List.map_fst_zip (by simp)] at this
  obtain ⟨l, h1, h2, h3⟩ := pick_pair (S.map Prod.fst) names mtimes hlen (by
    intro i hi
    exact List.mem_range.1 (hpermI.mem_iff.1 hi))
  refine ⟨l, ?_, ?_, h1, h2⟩
  · rw [h3]
    have hz : (names.zip mtimes).length = names.length := by simp [hlen]
    have := hpermI.filterMap fun i => (names.zip mtimes)[i]?
    rw [← hz, filterMap_range] at this
    exact this
  · have hfst : l.map Prod.fst = S.map Prod.snd := by
      have hp : pick (S.map Prod.fst) names = some (S.map Prod.snd) := by
        have hmem : ∀ q ∈ S, names[q.1]? = some q.2 := by
          intro q hq
          have hq2 := hperm.mem_iff.1 hq
          obtain ⟨i, hi, he⟩ := List.getElem_of_mem hq2
          rw [List.getElem_zip] at he
          rw [← he]
          simp at hi ⊢
        clear * - hmem
        revert hmem
        generalize S = S
        intro hmem
        unfold pick
        induction S with
        | nil => rfl
        | cons a t ih =>
          rw [List.map_cons, List.mapM_cons, hmem a (by simp), ih fun q hq => hmem q (by simp [hq])]
          rfl
      rw [hp, Option.some.injEq] at h1
      exact h1.symm
    rw [hfst, List.pairwise_map]
    have : Std.Total (fun a b : ℕ × N => a.2 ≤ b.2) := ⟨fun a b => le_total _ _⟩
    have : IsTrans (ℕ × N) (fun a b : ℕ × N => a.2 ≤ b.2) := ⟨fun a b c => le_trans⟩
    exact List.pairwise_insertionSort _ _

/-- **C48** a listing keeps names and times together: the pairs returned are the pairs of the directory whose
name matches the pattern, each as often as there, in order of name if sorting is asked for and in the order of
the directory otherwise -/
theorem listing_aligned (pat : Option (N → Bool)) (sort : Bool) (names : List N) (mtimes : List T)
    (hlen : names.length = mtimes.length) :
    ∃ l : List (N × T), listing pat sort names mtimes = some (l.map Prod.fst, l.map Prod.snd) ∧
      l.Perm ((names.zip mtimes).filter fun q => (pat.map fun p => p q.1).getD true) ∧
      (sort = true → (l.map Prod.fst).Pairwise (· ≤ ·)) ∧
      (sort = false → l = (names.zip mtimes).filter fun q => (pat.map fun p => p q.1).getD true) := by
  obtain ⟨l1, hl1, hstep⟩ : ∃ l1 : List (N × T),
      l1 = ((names.zip mtimes).filter fun q => (pat.map fun p => p q.1).getD true) ∧
      reduceBy pat names mtimes = some (l1.map Prod.fst, l1.map Prod.snd) := by
    refine ⟨_, rfl, ?_⟩
    cases pat with
    | none =>
      simp only [reduceBy, Option.map_none, Option.getD_none, List.filter_true]
      rw [List.map_fst_zip (by omega), List.map_snd_zip (by omega)]
    | some p =>
      obtain ⟨e1, e2⟩ := listing_filter_pair p names mtimes hlen
      simp only [reduceBy, pick2, e1, e2, Option.map_some, Option.getD_some]
  have hlen1 : (l1.map Prod.fst).length = (l1.map Prod.snd).length := by simp
  cases sort with
  | false =>
    refine ⟨l1, ?_, by rw [hl1], by simp, fun _ => hl1⟩
    unfold listing
    rw [hstep]
    simp [sortBy]
  | true =>
    obtain ⟨l, hp, hs, e1, e2⟩ := listing_sort_pair (l1.map Prod.fst) (l1.map Prod.snd) hlen1
    have hz : (l1.map Prod.fst).zip (l1.map Prod.snd) = l1 := by
      clear * -
      induction l1 with
      | nil => rfl
      | cons a t ih => simp [ih]
    rw [hz] at hp
    refine ⟨l, ?_, by rw [← hl1]; exact hp, fun _ => hs, by simp⟩
    unfold listing
    rw [hstep]
    simp only [Option.bind_some, sortBy, if_true, pick2, e1, e2]

/-- **C48** when the times are fewer than the names (`http_list` reads them from different cells) the pairing by
position is all there is: a matching name without a time makes the call fail -/
theorem listing_short (p : N → Bool) (sort : Bool) (names : List N) (mtimes : List T) (i : ℕ) (hi : i < names.length)
    (hp : p names[i] = true) (hm : mtimes.length ≤ i) : listing (some p) sort names mtimes = none := by
  have hmem : i ∈ (List.range names.length).filter fun i => (names[i]?.map p).getD false := by
    rw [List.mem_filter]
    exact ⟨List.mem_range.2 hi, by simp [hi, hp]⟩
  have hnone : pick ((List.range names.length).filter fun i => (names[i]?.map p).getD false) mtimes = none := by
    revert hmem
    generalize (List.range names.length).filter (fun i => (names[i]?.map p).getD false) = idx
    intro hmem
    unfold pick
    induction idx with
    | nil => simp at hmem
    | cons a t ih =>
      rw [List.mapM_cons]
      rcases List.mem_cons.1 hmem with rfl | h
      · rw [List.getElem?_eq_none hm]; rfl
      · rw [ih h]
        cases mtimes[a]? <;> rfl
  unfold listing reduceBy pick2
  simp only [hnone]
  cases pick ((List.range names.length).filter fun i => (names[i]?.map p).getD false) names <;> rfl
end

example : listing (some fun n : ℕ => n ≠ 7) true [5, 7, 3] ["five", "seven", "three"] = some ([3, 5], ["three", "five"]) := by
  decide +kernel

/-! ## queries -/

section
variable {T : Type} (time : String → T) (rel : String)

/-- the entries a page contributes -/
def names (p : Page) : List String := (p.entries.getD []).map Entry.title
def urls (p : Page) : List String :=
  (p.entries.getD []).filterMap fun e => (e.links.find? fun l => l.rel = rel).map Link.href
def times (p : Page) : List T := (p.entries.getD []).map fun e => time e.updated

/-- a page that ends the query -/
def Ends (p : Page) : Prop := p.entries ≠ none ∧ (urls rel p = [] ∨ p.header = none)

/-- a page that continues it -/
def Continues (p : Page) : Prop := p.entries ≠ none ∧ urls rel p ≠ [] ∧ p.header ≠ none

theorem filterJson_some (p : Page) (h : p.entries ≠ none) :
    filterJson time rel p = some (names p, urls rel p, times time p) := by
  unfold filterJson names urls times
  cases he : p.entries with
  | none => exact absurd he h
  | some es => rfl

theorem cmrLoop_from (pages : ℕ → Page) (n : ℕ) (hn : Ends rel (pages n)) (k : ℕ) (hk : k ≤ n)
    (hc : ∀ j, k ≤ j → j < n → Continues rel (pages j)) (acc : List String × List String × List T) (fuel : ℕ)
    (hf : n - k < fuel) :
    cmrLoop time rel pages fuel k acc =
      some (some (acc.1 ++ (List.range' k (n - k)).flatMap fun j => names (pages j),
        acc.2.1 ++ (List.range' k (n - k)).flatMap fun j => urls rel (pages j),
        acc.2.2 ++ (List.range' k (n - k)).flatMap fun j => times time (pages j))) := by
  induction fuel generalizing k acc with
  | zero => omega
  | succ f ih =>
    rw [cmrLoop]
    by_cases he : k = n
    · subst he
      rw [filterJson_some time rel _ hn.1]
      dsimp only
      rw [if_pos hn.2]
      simp
    · have hck := hc k le_rfl (by omega)
      rw [filterJson_some time rel _ hck.1]
      dsimp only
      rw [if_neg (by rintro (h | h); exacts [hck.2.1 h, hck.2.2 h]),
        ih (k + 1) (by omega) (fun j h1 h2 => hc j (by omega) h2) _ (by omega)]
      obtain ⟨m, hm⟩ : ∃ m, n - k = m + 1 := ⟨n - k - 1, by omega⟩
      rw [hm, show n - (k + 1) = m from by omega, List.range'_succ]
      simp

/-- **C49** the query returns the concatenation, in order, of the pages before the first page without links or
without the search-after header; it reads no page after that one -/
theorem cmr_pages (pages : ℕ → Page) (n : ℕ) (hn : Ends rel (pages n)) (hc : ∀ j, j < n → Continues rel (pages j))
    (fuel : ℕ) (hf : n < fuel) :
    cmrLoop time rel pages fuel 0 ([], [], []) =
      some (some ((List.range n).flatMap fun j => names (pages j), (List.range n).flatMap fun j => urls rel (pages j),
        (List.range n).flatMap fun j => times time (pages j))) := by
  rw [cmrLoop_from time rel pages n hn 0 (by omega) (fun j _ h => hc j h) _ fuel (by omega)]
  simp [List.range_eq_range']

/-- **C49** (a defect) the entries of a page without the header are dropped: a query answered by a single page
without it returns nothing -/
theorem cmr_single_page_lost (pages : ℕ → Page) (he : (pages 0).entries ≠ none) (hh : (pages 0).header = none)
    (fuel : ℕ) : cmrLoop time rel pages (fuel + 1) 0 ([], [], []) = some (some ([], [], [])) := by
  have := cmr_pages time rel pages 0 ⟨he, Or.inr hh⟩ (by omega) (fuel + 1) (by omega)
  simpa using this

/-- **C49** a response without feed or entries makes the query fail -/
theorem cmr_no_feed (pages : ℕ → Page) (n : ℕ) (hn : (pages n).entries = none)
    (hc : ∀ j, j < n → Continues rel (pages j)) (fuel : ℕ) (hf : n < fuel) :
    cmrLoop time rel pages fuel 0 ([], [], []) = some none := by
  have key : ∀ fuel k acc, k ≤ n → n - k < fuel → cmrLoop time rel pages fuel k acc = some none := by
    intro fuel
    induction fuel with
    | zero => intro k acc _ h; omega
    | succ f ih =>
      intro k acc hk hf
      rw [cmrLoop]
      by_cases he : k = n
      · subst he
        simp [filterJson, hn]
      · have hck := hc k (by omega)
        rw [filterJson_some time rel _ hck.1]
        dsimp only
        rw [if_neg (by rintro (h | h); exacts [hck.2.1 h, hck.2.2 h])]
        exact ih _ _ (by omega) (by omega)
  exact key fuel 0 _ (by omega) (by omega)

/-- **C49** as long as every page has links and a header the query goes on -/
theorem cmr_goes_on (pages : ℕ → Page) (hc : ∀ j, Continues rel (pages j)) (fuel k : ℕ)
    (acc : List String × List String × List T) : cmrLoop time rel pages fuel k acc = none := by
  induction fuel generalizing k acc with
  | zero => rfl
  | succ f ih =>
    rw [cmrLoop, filterJson_some time rel _ (hc k).1]
    dsimp only
    rw [if_neg (by rintro (h | h); exacts [(hc k).2.1 h, (hc k).2.2 h])]
    exact ih _ _

/-- **C49** names and times always match in number; urls do when every entry has a link of the endpoint's kind,
and then the url is that of the first such link -/
theorem filterJson_aligned (p : Page) (es : List Entry) (h : p.entries = some es)
    (hlinks : ∀ e ∈ es, ∃ l ∈ e.links, l.rel = rel) :
    ∃ us : List String, filterJson time rel p = some (es.map Entry.title, us, es.map fun e => time e.updated) ∧
      List.Forall₂ (fun e u => ∃ a l b, e.links = a ++ l :: b ∧ l.rel = rel ∧ l.href = u ∧ ∀ x ∈ a, x.rel ≠ rel) es us := by
  refine ⟨_, by unfold filterJson; rw [h]; rfl, ?_⟩
  clear h
  induction es with
  | nil => exact List.Forall₂.nil
  | cons e t ih =>
    obtain ⟨l, hl, hr⟩ := hlinks e (by simp)
    cases hf : e.links.find? fun l => decide (l.rel = rel) with
    | none =>
      rw [List.find?_eq_none] at hf
      exact absurd hr (by simpa using hf l hl)
    | some m =>
      rw [List.filterMap_cons, hf]
      refine List.Forall₂.cons ?_ (ih fun x hx => hlinks x (by simp [hx]))
      obtain ⟨hm, a, b, hab, ha⟩ := List.find?_eq_some_iff_append.1 hf
      exact ⟨a, m, b, hab, by simpa using hm, rfl, fun x hx => by simpa using ha x hx⟩

/-- **C49** (a defect) an entry without such a link shifts the urls of all later entries of the list against
their names -/
theorem filterJson_shift (header : Option String) (e f : Entry) (l : Link) (he : ∀ x ∈ e.links, x.rel ≠ rel)
    (hf : f.links = [l]) (hl : l.rel = rel) :
    filterJson time rel ⟨header, some [e, f]⟩ =
      some ([e.title, f.title], [l.href], [time e.updated, time f.updated]) := by
  have h1 : e.links.find? (fun l => decide (l.rel = rel)) = none := by
    rw [List.find?_eq_none]; intro x hx; simpa using he x hx
  unfold filterJson
  simp [h1, hf, hl]
end

example : Continues "d" ⟨some "x", some [⟨"t", "u", [⟨"d", "h"⟩]⟩]⟩ ∧ Ends "d" ⟨none, some [⟨"t", "u", [⟨"d", "h"⟩]⟩]⟩ := by
  refine ⟨⟨by simp, by decide, by simp⟩, ⟨by simp, Or.inr rfl⟩⟩

/-- **C49** the endpoint selects the link descriptor: only `data` and `s3` are known -/
theorem relOf_iff (endpoint rel : String) :
    relOf endpoint = some rel ↔
      (endpoint = "data" ∧ rel = "http://esipfed.org/ns/fedsearch/1.1/data#") ∨
      (endpoint = "s3" ∧ rel = "http://esipfed.org/ns/fedsearch/1.1/s3#") := by
  unfold relOf
  by_cases h : endpoint = "data"
  · subst h; simp [eq_comm]
  · by_cases h' : endpoint = "s3"
    · subst h'; simp [eq_comm]
    · simp [h, h']

end Verif.Utilities
