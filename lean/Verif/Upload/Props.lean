import Verif.Upload.Model
import Verif.Utilities.Paths
import Mathlib.Data.List.Induction
import Mathlib.Data.List.Dedup

/-!
# C125: uploads to figshare and the table of static models
-/
namespace Verif.Upload
open Verif.Utilities

variable {β : Type}

/-! ## Uploads -/

/-- where a file is stored: on the server the last of the given files with that path, otherwise what was there -/
def stored (disk : Str → Option β) (d : Str) (fs : List Str) (old : Str → Option β) (q : Str) : Option β :=
  match (fs.filter fun f => remotePath d f = q).getLast? with
  | some f => disk f
  | none => old q

theorem uploads_ok (disk : Str → Option β) (d : Str) (fs : List Str) (s : Server β) (hdisk : ∀ f ∈ fs, disk f ≠ none)
    (hdir : ∀ f ∈ fs, s.dirs (psplit (remotePath d f)).1 = true) :
    uploads disk (some d) s fs = ({ s with files := stored disk d fs s.files }, none) := by
  induction fs generalizing s with
  | nil => rfl
  | cons f fs ih =>
    obtain ⟨b, hb⟩ := Option.ne_none_iff_exists'.1 (hdisk f (by simp))
    simp only [uploads, hb, Server.stor, hdir f (by simp), if_true]
    rw [ih { s with files := fun q => if q = remotePath d f then some b else s.files q } (fun g hg => hdisk g (by simp [hg])) fun g hg => hdir g (by simp [hg])]
    simp only [Prod.mk.injEq, and_true, Server.mk.injEq, true_and]
    funext q
    simp only [stored, List.filter_cons]
    by_cases h : remotePath d f = q
    · simp only [h, decide_true, if_true]
      cases hl : fs.filter fun f => remotePath d f = q with
      | nil => simp [hb]
      | cons g r => simp [List.getLast?_cons]
    · simp only [h, decide_false, Bool.false_eq_true, if_false]
      cases (fs.filter fun f => remotePath d f = q).getLast? with
      | none => exact if_neg (Ne.symm h)
      | some g => rfl

/-- the parts of a path on the server for an ordinary directory -/
theorem remotePath_eq (d f : Str) (h0 : d ≠ []) (h1 : d.head? ≠ some '/') (h2 : d.getLast? ≠ some '/') :
    remotePath d f = "data/".toList ++ d ++ '/' :: (psplit f).2 ∧ joinStep "data".toList d = "data/".toList ++ d ∧
      (psplit (remotePath d f)).1 = "data/".toList ++ d := by
  have e1 : joinStep "data".toList d = "data/".toList ++ d := by
    unfold joinStep
    rw [if_neg h1, if_neg (by decide)]
    rfl
  have hn : NoSlash (psplit f).2 := by
    obtain ⟨H, w, rfl, hw, hH⟩ := split_shape f
    rw [psplit_eq H w hw hH]
    exact hw
  have hl : ("data/".toList ++ d).getLast? ≠ some '/' := by
    rw [List.getLast?_append_of_ne_nil _ h0]; exact h2
  have e2 : remotePath d f = "data/".toList ++ d ++ '/' :: (psplit f).2 := by
    unfold remotePath
    rw [e1]
    unfold joinStep
    rw [if_neg, if_neg]
    · rintro (h | h)
      · simp at h
      · exact hl h
    · intro h
      exact hn (List.mem_of_mem_head? h)
  refine ⟨e2, e1, ?_⟩
  rw [e2]
  have := psplit_slashes ("data/".toList ++ d) (psplit f).2 0 (by simp) hl hn
  simpa using congrArg Prod.fst this

/-- **C125** files sent to a directory that is there, or that can be made, are below `data/directory` under their names with their
contents (the last one if two have the same name); everything else on the server is as before -/
theorem upload_spec (disk : Str → Option β) (d : Str) (s : Server β) (fs : List Str) (h0 : d ≠ []) (h1 : d.head? ≠ some '/')
    (h2 : d.getLast? ≠ some '/') (hdisk : ∀ f ∈ fs, disk f ≠ none)
    (hdir : s.dirs ("data/".toList ++ d) = true ∨ s.dirs (psplit ("data/".toList ++ d)).1 = true) :
    let r := toFigshare disk (some d) s fs
    r.2 = none ∧
      (∀ q, r.1.dirs q = true ↔ s.dirs q = true ∨ q = "data/".toList ++ d) ∧
      (∀ pre f post, fs = pre ++ f :: post → (∀ g ∈ post, (psplit g).2 ≠ (psplit f).2) →
        r.1.files ("data/".toList ++ d ++ '/' :: (psplit f).2) = disk f) ∧
      (∀ q, (∀ f ∈ fs, q ≠ "data/".toList ++ d ++ '/' :: (psplit f).2) → r.1.files q = s.files q) := by
  have hp := fun f => remotePath_eq d f h0 h1 h2
  have e1 : joinStep "data".toList d = "data/".toList ++ d := (hp []).2.1
  have hm : ∀ q, (s.mkd ("data/".toList ++ d)).dirs q = true ↔ s.dirs q = true ∨ q = "data/".toList ++ d := by
    intro q
    unfold Server.mkd
    split
    · by_cases hq : q = "data/".toList ++ d 
      · simp [hq]
      · show (if q = "data/".toList ++ d then true else s.dirs q) = true ↔ _
        rw [if_neg hq]
        exact ⟨Or.inl, fun h => h.resolve_right hq⟩
    · rename_i h
      have : s.dirs ("data/".toList ++ d) = true := by
        by_contra h'
        exact h ⟨by simpa using h', hdir.resolve_left h'⟩
      constructor
      · exact Or.inl
      · rintro (h | rfl) <;> assumption
  have hf : (s.mkd ("data/".toList ++ d)).files = s.files := by
    unfold Server.mkd; split <;> rfl
  intro r
  have hr : r = ({ s.mkd ("data/".toList ++ d) with files := stored disk d fs s.files }, none) := by
    show toFigshare disk (some d) s fs = _
    unfold toFigshare
    simp only [e1]
    rw [uploads_ok disk d fs _ hdisk (fun f _ => by rw [(hp f).2.2]; exact (hm _).2 (Or.inr rfl)), hf]
  rw [hr]
  refine ⟨rfl, hm, ?_, ?_⟩
  · rintro pre f post rfl hpost
    have e : (pre ++ f :: post).filter (fun g => remotePath d g = "data/".toList ++ d ++ '/' :: (psplit f).2) =
        pre.filter (fun g => remotePath d g = "data/".toList ++ d ++ '/' :: (psplit f).2) ++ [f] := by
      have en : post.filter (fun g => remotePath d g = "data/".toList ++ d ++ '/' :: (psplit f).2) = [] := by
        rw [List.filter_eq_nil_iff]
        intro g hg
        rw [(hp g).1]
        simpa using hpost g hg
      rw [List.filter_append, List.filter_cons, if_pos (by simp [(hp f).1]), en]
    simp only [stored, e, List.getLast?_append, List.getLast?_singleton, Option.some_or]
  · intro q hq
    have e : fs.filter (fun g => remotePath d g = q) = [] := by
      rw [List.filter_eq_nil_iff]
      intro g hg
      rw [(hp g).1]
      simpa using fun h => hq g hg h.symm
    simp only [stored, e, List.getLast?_nil]

/-- **C125** the upload ends at the first file that is missing: those before it are on the server, those behind it are not sent -/
theorem upload_stops (disk : Str → Option β) (dir : Option Str) (s : Server β) (pre post : List Str) (f : Str) (hf : disk f = none)
    (hpre : (toFigshare disk dir s pre).2 = none) (hd : dir ≠ none) :
    toFigshare disk dir s (pre ++ f :: post) = ((toFigshare disk dir s pre).1, some .notFound) := by
  have key : ∀ (s : Server β), (uploads disk dir s pre).2 = none →
      uploads disk dir s (pre ++ f :: post) = ((uploads disk dir s pre).1, some .notFound) := by
    clear hpre
    obtain ⟨d, rfl⟩ := Option.ne_none_iff_exists'.1 hd
    induction pre with
    | nil => intro s _; simp [uploads, hf]
    | cons g pre ih =>
      intro s h
      simp only [List.cons_append, uploads] at h ⊢
      cases hb : disk g with
      | none => simp [hb] at h
      | some b =>
        simp only [hb] at h ⊢
        cases hs : s.stor (remotePath d g) b with
        | error e => simp [hs] at h
        | ok s' =>
          simp only [hs] at h ⊢
          exact ih s' h
  exact key _ hpre

/-- **C125** without a directory (the default) nothing is sent and nothing made: `TypeError` if there is a file -/
theorem upload_default (disk : Str → Option β) (s : Server β) (fs : List Str) :
    toFigshare disk none s fs = (s, if fs = [] then none else some .type) := by
  cases fs <;> rfl

/-- **C125** only one directory is made: if neither the directory nor the one above it exists, nothing is made and nothing sent -/
theorem upload_one_level (disk : Str → Option β) (d : Str) (s : Server β) (f : Str) (fs : List Str) (h0 : d ≠ [])
    (h1 : d.head? ≠ some '/') (h2 : d.getLast? ≠ some '/') (hf : disk f ≠ none) (hd : s.dirs ("data/".toList ++ d) = false)
    (hup : s.dirs (psplit ("data/".toList ++ d)).1 = false) : toFigshare disk (some d) s (f :: fs) = (s, some .perm) := by
  obtain ⟨-, e1, e2⟩ := remotePath_eq d f h0 h1 h2
  obtain ⟨b, hb⟩ := Option.ne_none_iff_exists'.1 hf
  have hm : s.mkd ("data/".toList ++ d) = s := by unfold Server.mkd; rw [if_neg fun h => by rw [hup] at h; exact Bool.noConfusion h.2]
  simp only [toFigshare, e1, hm, uploads, hb, Server.stor, e2, hd, Bool.false_eq_true, if_false]

/-- **C125** however it ends, no directory and no file is removed from the server, and what is new is one of the local files -/
theorem upload_keeps (disk : Str → Option β) (dir : Option Str) (s : Server β) (fs : List Str) :
    let r := (toFigshare disk dir s fs).1
    (∀ q, s.dirs q = true → r.dirs q = true) ∧ ∀ q, r.files q = s.files q ∨ ∃ f ∈ fs, (disk f).isSome ∧ r.files q = disk f := by
  have key : ∀ (s : Server β) fs, let r := (uploads disk dir s fs).1
      r.dirs = s.dirs ∧ ∀ q, r.files q = s.files q ∨ ∃ f ∈ fs, (disk f).isSome ∧ r.files q = disk f := by
    intro s fs
    induction fs generalizing s with
    | nil => exact ⟨rfl, fun q => Or.inl rfl⟩
    | cons f fs ih =>
      simp only [uploads]
      cases dir with
      | none => exact ⟨rfl, fun q => Or.inl rfl⟩
      | some d =>
        cases hb : disk f with
        | none => exact ⟨rfl, fun q => Or.inl rfl⟩
        | some b =>
          simp only [Server.stor]
          split
          · exact ⟨rfl, fun q => Or.inl rfl⟩
          · rename_i s' hs
            split at hs
            · simp only [Except.ok.injEq] at hs
              subst hs
              obtain ⟨i1, i2⟩ := ih { s with files := fun q => if q = remotePath d f then some b else s.files q }
              refine ⟨i1, fun q => ?_⟩
              rcases i2 q with h | ⟨g, hg, h⟩
              · simp only at h
                split at h
                · exact Or.inr ⟨f, by simp, by simp [hb], by rw [h, hb]⟩
                · exact Or.inl h
              · exact Or.inr ⟨g, by simp [hg], h⟩
            · simp at hs
  intro r
  cases dir with
  | none => exact ⟨fun q h => by rw [show r.dirs = s.dirs from (key s fs).1]; exact h, (key s fs).2⟩
  | some d =>
    have hf : (s.mkd (joinStep "data".toList d)).files = s.files := by unfold Server.mkd; split <;> rfl
    have hk := key (s.mkd (joinStep "data".toList d)) fs
    refine ⟨fun q h => ?_, fun q => ?_⟩
    · rw [show r.dirs = (s.mkd (joinStep "data".toList d)).dirs from hk.1]
      unfold Server.mkd
      split
      · simp only; split
        · rfl
        · exact h
      · exact h
    · rw [← hf]; exact hk.2 q

/-- **C125** a directory that begins with a slash is not below `data` -/
theorem upload_absolute (d f : Str) : ∃ t, remotePath ('/' :: d) f = '/' :: d ++ t := by
  unfold remotePath
  have e : joinStep "data".toList ('/' :: d) = '/' :: d := by simp [joinStep]
  have hn : NoSlash (psplit f).2 := by
    obtain ⟨H, w, rfl, hw, hH⟩ := split_shape f
    rw [psplit_eq H w hw hH]
    exact hw
  rw [e]
  have hh : (psplit f).2.head? ≠ some '/' := fun h => hn (List.mem_of_mem_head? h)
  unfold joinStep
  rw [if_neg hh]
  split
  · exact ⟨_, rfl⟩
  · exact ⟨_, rfl⟩

/-! ## Static models -/

/-- a name whose only `gfc` will be the one of its suffix -/
def Clean (stem : Str) : Prop := ¬ "gfc".toList <:+: stem ∧ '\n' ∉ stem

theorem lazyGfc_clean (stem rest : Str) (h : Clean stem) : lazyGfc (stem ++ (".gfc".toList ++ rest)) = some (stem, rest) := by
  induction stem with
  | nil => rfl
  | cons c t ih =>
    obtain ⟨h1, h2⟩ := h
    have hc : c ≠ '\n' := fun h => h2 (by simp [h])
    have ht : Clean t := ⟨fun h => h1 (h.trans (List.suffix_cons c t).isInfix), fun h => h2 (by simp [h])⟩
    have hp : "gfc".toList.isPrefixOf (t ++ (".gfc".toList ++ rest)) = false := by
      rw [Bool.eq_false_iff]
      intro hp
      rw [List.isPrefixOf_iff_prefix] at hp
      apply ht.1
      obtain ⟨u, hu⟩ := hp
      match t, hu with
      | [], hu => simp at hu
      | [a], hu => simp at hu
      | [a, b], hu => simp at hu
      | a :: b :: d :: t', hu =>
        simp only [String.reduceToList, List.cons_append, List.nil_append, List.cons.injEq] at hu
        obtain ⟨rfl, rfl, rfl, -⟩ := hu
        exact (List.prefix_append "gfc".toList t').isInfix
    simp only [List.cons_append, lazyGfc, if_neg hc, hp, Bool.false_eq_true, if_false]
    rw [ih ht]
    rfl

theorem findGfc_step (t : Str) (x : Str × Str) (h : lazyGfc t = some x) : findGfc t = x.1 :: findGfc x.2 := by
  cases t with
  | nil => simp [lazyGfc] at h
  | cons c r =>
    rw [findGfc]
    split
    · rename_i hn; rw [h] at hn; simp at hn
    · rename_i y hy
      rw [h] at hy
      simp only [Option.some.injEq] at hy
      rw [hy]

theorem findGfc_nil : findGfc [] = [] := by rw [findGfc]

/-- **C125** the name of a model is the name of its file without the suffix -/
theorem model_name (stem : Str) (h : Clean stem) : findGfc (stem ++ ".gfc".toList) = [stem] := by
  have := lazyGfc_clean stem [] h
  rw [List.append_nil] at this
  rw [findGfc_step _ _ this, findGfc_nil]

/-- **C125** but every name with the suffix twice becomes the empty name -/
theorem model_name_twice (stem : Str) (h : Clean stem) : (findGfc (stem ++ ".gfc.gfc".toList)).getLast? = some [] := by
  have := lazyGfc_clean stem ".gfc".toList h
  rw [show stem ++ ".gfc.gfc".toList = stem ++ (".gfc".toList ++ ".gfc".toList) from rfl, findGfc_step _ _ this,
    show findGfc ".gfc".toList = [[]] from model_name [] ⟨by decide, by simp⟩]
  rfl

theorem lazyGfc_line (x rest : Str) (h : Clean x) : lazyGfc (x ++ '\n' :: rest) = none := by
  induction x with
  | nil => rfl
  | cons c t ih =>
    obtain ⟨h1, h2⟩ := h
    have hc : c ≠ '\n' := fun h => h2 (by simp [h])
    have ht : Clean t := ⟨fun h => h1 (h.trans (List.suffix_cons c t).isInfix), fun h => h2 (by simp [h])⟩
    have hp : "gfc".toList.isPrefixOf (t ++ '\n' :: rest) = false := by
      rw [Bool.eq_false_iff]
      intro hp
      rw [List.isPrefixOf_iff_prefix] at hp
      apply ht.1
      obtain ⟨u, hu⟩ := hp
      match t, hu with
      | [], hu => simp at hu
      | [a], hu => simp at hu
      | [a, b], hu => simp at hu
      | a :: b :: d :: t', hu =>
        simp only [String.reduceToList, List.cons_append, List.nil_append, List.cons.injEq] at hu
        obtain ⟨rfl, rfl, rfl, -⟩ := hu
        exact (List.prefix_append "gfc".toList t').isInfix
    simp only [List.cons_append, lazyGfc, if_neg hc, hp, Bool.false_eq_true, if_false]
    rw [ih ht]
    rfl

theorem findGfc_none (c : Char) (r : Str) (hn : lazyGfc (c :: r) = none) : findGfc (c :: r) = findGfc r := by
  rw [findGfc]
  split
  · rfl
  · rename_i hx; rw [hn] at hx; simp at hx

/-- **C125** a name does not go over a line feed: it is what follows the line feed -/
theorem model_name_line (x stem : Str) (hx : Clean x) (h : Clean stem) : findGfc (x ++ '\n' :: (stem ++ ".gfc".toList)) = [stem] := by
  induction x with
  | nil => rw [List.nil_append, findGfc_none _ _ rfl, model_name stem h]
  | cons c t ih =>
    have ht : Clean t := ⟨fun h => hx.1 (h.trans (List.suffix_cons c t).isInfix), fun h => hx.2 (by simp [h])⟩
    have := lazyGfc_line (c :: t) (stem ++ ".gfc".toList) hx
    rw [List.cons_append] at this ⊢
    rw [findGfc_none _ _ this, ih ht]

/-- **C125** the links that count are those that end in `gfc`, or in `gfc` and a line feed -/
theorem links_count (f : Str) : endsGfc f = true ↔ ∃ u, f = u ++ "gfc".toList ∨ f = u ++ "gfc\n".toList := by
  simp only [endsGfc, Bool.or_eq_true, List.isSuffixOf_iff_suffix]
  constructor
  · rintro (⟨u, hu⟩ | ⟨u, hu⟩)
    · exact ⟨u, Or.inl hu.symm⟩
    · exact ⟨u, Or.inr hu.symm⟩
  · rintro ⟨u, hu | hu⟩
    · exact Or.inl ⟨u, hu.symm⟩
    · exact Or.inr ⟨u, hu.symm⟩

/-- **C125** sent once more, the files change nothing -/
theorem upload_again (disk : Str → Option β) (d : Str) (s : Server β) (fs : List Str) (h0 : d ≠ []) (h1 : d.head? ≠ some '/')
    (h2 : d.getLast? ≠ some '/') (hdisk : ∀ f ∈ fs, disk f ≠ none)
    (hdir : s.dirs ("data/".toList ++ d) = true ∨ s.dirs (psplit ("data/".toList ++ d)).1 = true) :
    toFigshare disk (some d) (toFigshare disk (some d) s fs).1 fs = toFigshare disk (some d) s fs := by
  have hp := fun f => remotePath_eq d f h0 h1 h2
  have e1 : joinStep "data".toList d = "data/".toList ++ d := (hp []).2.1
  have hd : (s.mkd ("data/".toList ++ d)).dirs ("data/".toList ++ d) = true := by
    by_cases h : s.dirs ("data/".toList ++ d) = true
    · unfold Server.mkd; rw [if_neg (by rw [h]; simp)]; exact h
    · unfold Server.mkd
      rw [if_pos ⟨by simpa using h, hdir.resolve_left h⟩]
      simp
  have run : ∀ t : Server β, t.dirs ("data/".toList ++ d) = true →
      uploads disk (some d) t fs = ({ t with files := stored disk d fs t.files }, none) := fun t ht =>
    uploads_ok disk d fs t hdisk fun f _ => by rw [(hp f).2.2]; exact ht
  have stay : ∀ t : Server β, t.dirs ("data/".toList ++ d) = true → t.mkd ("data/".toList ++ d) = t := by
    intro t ht; unfold Server.mkd; rw [if_neg (by rw [ht]; simp)]
  simp only [toFigshare, e1, run _ hd]
  generalize s.mkd ("data/".toList ++ d) = t at hd
  rw [stay { t with files := stored disk d fs t.files } hd, run { t with files := stored disk d fs t.files } hd]
  simp only [Prod.mk.injEq, and_true, Server.mk.injEq, true_and]
  funext q
  simp only [stored]
  split <;> rfl

theorem setKey_lookup (k : Str) (v : List Str) (d : List (Str × List Str)) (q : Str) :
    (setKey k v d).lookup q = if q = k then some v else d.lookup q := by
  induction d with
  | nil =>
    by_cases h : q = k
    · simp [setKey, h]
    · have : (q == k) = false := by simpa using h
      simp only [setKey, List.lookup, this, if_neg h]
  | cons a r ih =>
    obtain ⟨a, b⟩ := a
    simp only [setKey]
    split
    · rename_i h
      subst h
      by_cases h : q = a
      · simp [List.lookup, h]
      · have : (q == a) = false := by simpa using h
        simp only [List.lookup, this, if_neg h]
    · rename_i h
      by_cases hq : q = a
      · subst hq
        simp [List.lookup, h]
      · have : (q == a) = false := by simpa using hq
        simp only [List.lookup, this]
        exact ih

theorem setKey_keys (k : Str) (v : List Str) (d : List (Str × List Str)) :
    (setKey k v d).map Prod.fst = if k ∈ d.map Prod.fst then d.map Prod.fst else d.map Prod.fst ++ [k] := by
  induction d with
  | nil => simp [setKey]
  | cons a r ih =>
    obtain ⟨a, b⟩ := a
    simp only [setKey]
    split
    · rename_i h; simp [h]
    · rename_i h
      rw [List.map_cons, ih]
      have : k ≠ a := fun h' => h h'.symm
      by_cases hk : k ∈ r.map Prod.fst
      · simp only [hk, if_true, List.map_cons, List.mem_cons, or_true]
      · simp [hk, this]

/-- a link of the table that leads to a model: the parts of its address and the name -/
structure Entry (f : Str) (stem : Str) (parts : List Str) : Prop where
  clean : Clean stem
  file : (psplit f).2 = stem ++ ".gfc".toList
  url : urlSplit f = some parts

/-- **C125** on a page whose links to models all have ordinary names, each name has the parts of the address of the last link with
that name, in the order of the first links; links to other files do not count -/
theorem icgem_spec (links : List Str) (stem : Str → Str) (parts : Str → List Str)
    (h : ∀ f ∈ links, endsGfc f = true → Entry f (stem f) (parts f)) :
    ∃ d, icgemList (some links) = .ok d ∧ (d.map Prod.fst).Nodup ∧
      (∀ k, d.lookup k = (((links.filter endsGfc).filter fun f => stem f = k).getLast?).map parts) ∧
      d.map Prod.fst = (((links.filter endsGfc).map stem).reverse.dedup).reverse := by
  have h' : ∀ f ∈ links.filter endsGfc, Entry f (stem f) (parts f) := fun f hf =>
    h f (List.mem_of_mem_filter hf) (List.of_mem_filter hf)
  simp only [icgemList]
  generalize links.filter endsGfc = L at h'
  suffices hs : ∃ d, L.foldl addModel (.ok []) = .ok d ∧
      (∀ k, d.lookup k = ((L.filter fun f => stem f = k).getLast?).map parts) ∧
      d.map Prod.fst = ((L.map stem).reverse.dedup).reverse by
    obtain ⟨d, h1, h2, h3⟩ := hs
    exact ⟨d, h1, by rw [h3, List.nodup_reverse]; exact List.nodup_dedup _, h2, h3⟩
  induction L using List.reverseRecOn with
  | nil => exact ⟨[], rfl, fun k => rfl, rfl⟩
  | append_singleton L f ih =>
    obtain ⟨d, h1, h2, h3⟩ := ih fun g hg => h' g (List.mem_append_left _ hg)
    have he := h' f (by simp)
    refine ⟨setKey (stem f) (parts f) d, ?_, fun k => ?_, ?_⟩
    · rw [List.foldl_append, h1]
      simp only [List.foldl_cons, List.foldl_nil, addModel, he.file, model_name _ he.clean, he.url, List.getLast?_singleton]
    · rw [setKey_lookup, h2, List.filter_append]
      by_cases hk : k = stem f
      · subst hk; simp
      · have : stem f ≠ k := fun h => hk h.symm
        simp [hk, this]
    · rw [setKey_keys, h3, List.map_append, List.reverse_append]
      by_cases hm : stem f ∈ L.map stem
      · rw [if_pos (by simpa using hm), List.map_singleton, List.reverse_singleton, List.singleton_append,
          List.dedup_cons_of_mem (by simpa using hm)]
      · rw [if_neg (by simpa using hm), List.map_singleton, List.reverse_singleton, List.singleton_append,
          List.dedup_cons_of_notMem (by simpa using hm), List.reverse_cons]

/-- **C125** a page that cannot be read is an exception, and so is a link to a file named `gfc` -/
theorem icgem_fails (links : List Str) (f : Str) (hf : (psplit f).2 = "gfc".toList) (he : endsGfc f = true) :
    icgemList none = .error .list ∧ icgemList (some (f :: links)) = .error .index := by
  refine ⟨rfl, ?_⟩
  have hg : findGfc "gfc".toList = [] := by
    have step : ∀ c r, lazyGfc (c :: r) = none → findGfc (c :: r) = findGfc r := by
      intro c r hn
      rw [findGfc]
      split
      · rfl
      · rename_i hx; rw [hn] at hx; simp at hx
    rw [show "gfc".toList = ['g', 'f', 'c'] from rfl, step _ _ (by decide), step _ _ (by decide), step _ _ (by decide), findGfc_nil]
  have stay : ∀ (l : List Str) (e : Err), l.foldl addModel (.error e) = .error e := by
    intro l e
    induction l with
    | nil => rfl
    | cons a l ih => exact ih
  simp only [icgemList, List.filter_cons, he, if_true, List.foldl_cons, addModel, hf, hg, List.getLast?_nil]
  exact stay _ _

/-! ## The hypotheses can be met -/

/-- a server with the directory `data` -/
def exampleServer : Server ℕ := ⟨fun p => decide (p = "data".toList), fun _ => none⟩

/-- two local files -/
def exampleDisk : Str → Option ℕ := fun p => if p = "/a/x.txt".toList then some 1 else if p = "/b/y.txt".toList then some 2 else none

example : (toFigshare exampleDisk (some "grace".toList) exampleServer ["/a/x.txt".toList, "/b/y.txt".toList]).1.files
    "data/grace/y.txt".toList = some 2 := by decide +kernel

example : exampleServer.dirs (psplit ("data/".toList ++ "grace".toList)).1 = true ∧ exampleDisk "/a/x.txt".toList ≠ none := by
  decide +kernel

/-- a directory below one that is missing -/
example : exampleServer.dirs ("data/".toList ++ "a/b".toList) = false ∧
    exampleServer.dirs (psplit ("data/".toList ++ "a/b".toList)).1 = false := by decide +kernel

example : Clean "EIGEN-6C4".toList := ⟨by decide +kernel, by decide +kernel⟩

example : Entry "/getmodel/gfc/EIGEN-6C4.gfc".toList "EIGEN-6C4".toList
    ["getmodel".toList, "gfc".toList, "EIGEN-6C4.gfc".toList] :=
  ⟨⟨by decide +kernel, by decide +kernel⟩, by decide +kernel,
    urlSplit_absolute "getmodel".toList ["gfc".toList, "EIGEN-6C4.gfc".toList] (by decide) (by decide) (by decide)⟩

example : endsGfc "/x/gfc".toList = true ∧ (psplit "/x/gfc".toList).2 = "gfc".toList := by decide +kernel

end Verif.Upload
