import Verif.HarmIO.Index
import Verif.HarmIO.Data
import Verif.HarmIO.Ascii
import Verif.Harmonics.Series

/-!
# C85: series of spherical harmonics in index files
-/
set_option linter.unusedSectionVars false
namespace Verif.HarmIO.Data
open Verif.Harmonics
open Verif.Time (adjustMonths)
variable {K : Type} [_root_.Field K]

/-- components of a path: not empty, not a dot, without slash or line break -/
def Valid (p : Path) : Prop := ∀ c ∈ p, c ≠ [] ∧ c ≠ ['.'] ∧ '/' ∉ c ∧ ∀ x ∈ c, isBreak x = false

/-! ## Lines and paths -/

theorem splitLines_line (line rest : List Char) (h : ∀ x ∈ line, isBreak x = false) :
    splitLines (line ++ '\n' :: rest) = line :: splitLines rest := by
  induction line with
  | nil => rw [List.nil_append, splitLines, if_pos (by decide)]
  | cons c cs ih =>
    rw [List.cons_append, splitLines, if_neg (by simp [h c (by simp)]), ih fun x hx => h x (by simp [hx])]

theorem splitSlash_word (w s : List Char) (h : '/' ∉ w) :
    splitSlash (w ++ s) = match splitSlash s with
      | [] => [w]
      | x :: xs => (w ++ x) :: xs := by
  induction w with
  | nil =>
    have : splitSlash s ≠ [] := by
      cases s with
      | nil => simp [splitSlash]
      | cons c cs =>
        rw [splitSlash]
        split
        · simp
        · split <;> simp
    rw [List.nil_append]
    cases hs : splitSlash s with
    | nil => exact absurd hs this
    | cons x xs => rfl
  | cons c cs ih =>
    simp only [List.mem_cons, not_or] at h
    rw [List.cons_append, splitSlash, if_neg (Ne.symm h.1), ih h.2]
    cases splitSlash s <;> rfl

theorem splitSlash_slashed (p : Path) (hp : Valid p) : splitSlash (slashed p) = [] :: p := by
  induction p with
  | nil => rfl
  | cons c cs ih =>
    have : slashed (c :: cs) = '/' :: (c ++ slashed cs) := by simp [slashed]
    rw [this, splitSlash, if_pos rfl, splitSlash_word _ _ (hp c (by simp)).2.2.1,
      ih fun x hx => hp x (by simp [hx])]
    simp

theorem filter_valid (p : Path) (hp : Valid p) : p.filter (fun w => w ≠ [] ∧ w ≠ ['.']) = p := by
  rw [List.filter_eq_self]
  intro c hc
  have := hp c hc
  simp [this.1, this.2.1]

/-- the text in the index leads back to the file -/
theorem resolve_compress (home cwd p : Path) (hp : Valid p) : resolve home cwd (compress home p) = p := by
  unfold compress
  split
  · rename_i h
    have hpre : home <+: p := List.isPrefixOf_iff_prefix.1 h
    obtain ⟨rest, rfl⟩ := hpre
    rw [List.drop_left]
    have hv : Valid rest := fun c hc => hp c (by simp [hc])
    unfold resolve
    have hs : splitSlash ('~' :: slashed rest) = ['~'] :: rest := by
      have := splitSlash_word ['~'] (slashed rest) (by decide)
      rw [List.singleton_append] at this
      rw [this, splitSlash_slashed rest hv]
      rfl
    have hfl : (['~'] :: rest).filter (fun w => w ≠ [] ∧ w ≠ ['.']) = ['~'] :: rest := by
      have := filter_valid rest hv
      rw [List.filter_cons]
      simp only [this]
      rfl
    rw [hs, hfl]
    simp
  · split
    · rename_i h
      subst h
      rfl
    · rename_i h
      unfold resolve
      have hfl : (([] : List Char) :: p).filter (fun w => w ≠ [] ∧ w ≠ ['.']) = p := by
        have := filter_valid p hp
        rw [List.filter_cons]
        simp only [this]
        rfl
      rw [splitSlash_slashed p hp, hfl]
      simp only
      rw [if_pos]
      cases p with
      | nil => exact absurd rfl h
      | cons c cs => simp [slashed]

theorem slashed_noBreak (p : Path) (hp : Valid p) : ∀ x ∈ slashed p, isBreak x = false := by
  intro x hx
  simp only [slashed, List.mem_flatMap, List.mem_cons] at hx
  obtain ⟨c, hc, rfl | hx⟩ := hx
  · decide
  · exact (hp c hc).2.2.2 x hx

theorem compress_line (home p : Path) (hp : Valid p) :
    (∀ x ∈ compress home p, isBreak x = false) ∧ keepLine (compress home p) = true := by
  unfold compress
  split
  · refine ⟨?_, by simp [keepLine]⟩
    intro x hx
    rcases List.mem_cons.1 hx with rfl | hx
    · decide
    · exact slashed_noBreak _ (fun c hc => hp c (List.mem_of_mem_drop hc)) x hx
  · split
    · exact ⟨by decide, by decide⟩
    · rename_i h
      refine ⟨slashed_noBreak p hp, ?_⟩
      cases p with
      | nil => exact absurd rfl h
      | cons c cs => simp [slashed, keepLine]

/-- the text of an index -/
def indexText (home : Path) (files : List Path) : List Char := files.flatMap fun f => compress home f ++ ['\n']

theorem indexText_lines (home : Path) (files : List Path) (hv : ∀ f ∈ files, Valid f) :
    (splitLines (indexText home files)).filter keepLine = files.map (compress home) := by
  induction files with
  | nil => rfl
  | cons f fs ih =>
    have : indexText home (f :: fs) = compress home f ++ '\n' :: indexText home fs := by simp [indexText]
    obtain ⟨h1, h2⟩ := compress_line home f (hv f (by simp))
    rw [this, splitLines_line _ _ h1, List.filter_cons, if_pos h2, ih fun g hg => hv g (by simp [hg]), List.map_cons]

/-! ## Writing -/

theorem toIndex_loop {C : Type} (wr : Harm K → Option C → Except Err C) (rd : C → Except Err (Harm K)) (home : Path) (h : Harm K)
    (n : ℕ) (hnt : h.nt = some n) (hwf : h.WF) (P : ℕ → Harm K → Prop)
    (hcodec : ∀ i, i < n → ∀ old, ∃ c o, wr (dateField h i) old = .ok c ∧ rd c = .ok o ∧ P i o) (files : List Path) :
    ∀ (k : ℕ) (fs : Path → Option C) (txt : List Char), k + files.length ≤ n → files.Nodup →
      ∃ fs', (files.zipIdx k).foldlM (writeEntry (some wr) home h) (fs, txt) = .ok (fs', txt ++ indexText home files) ∧
        (∀ i f, files[i]? = some f → ∃ c o, fs' f = some c ∧ rd c = .ok o ∧ P (k + i) o) ∧
        (∀ f, f ∉ files → fs' f = fs f) := by
  induction files with
  | nil =>
    intro k fs txt _ _
    exact ⟨fs, by simp [indexText, pure, Except.pure], by simp, fun _ _ => rfl⟩
  | cons f rest ih =>
    intro k fs txt hk hnd
    rw [List.length_cons] at hk
    rw [List.nodup_cons] at hnd
    obtain ⟨c, o, h1, h2, h3⟩ := hcodec k (by omega) (fs f)
    obtain ⟨fs', e1, e2, e3⟩ := ih (k + 1) (Function.update fs f (some c)) (txt ++ compress home f ++ ['\n']) (by omega) hnd.2
    have hstep : writeEntry (some wr) home h (fs, txt) (f, k) =
        .ok (Function.update fs f (some c), txt ++ compress home f ++ ['\n']) := by
      unfold writeEntry
      rw [index_ok h n k hnt hwf (by omega)]
      simp only [liftErr, bind, Except.bind, h1, pure, Except.pure]
    refine ⟨fs', ?_, ?_, ?_⟩
    · rw [List.zipIdx_cons, List.foldlM_cons, hstep]
      simp only [bind, Except.bind]
      rw [e1]
      simp [indexText]
    · intro i g hg
      cases i with
      | zero =>
        simp only [List.getElem?_cons_zero, Option.some.injEq] at hg
        subst hg
        refine ⟨c, o, ?_, h2, h3⟩
        rw [e3 f hnd.1, Function.update_self]
      | succ i =>
        rw [List.getElem?_cons_succ] at hg
        have := e2 i g hg
        rwa [show k + 1 + i = k + (i + 1) by omega] at this
    · intro g hg
      rw [List.mem_cons, not_or] at hg
      rw [e3 g hg.2, Function.update_of_ne hg.1]

theorem mapM_ok {α β : Type} (g : α → Except Err β) (xs : List α) (P : ℕ → β → Prop)
    (h : ∀ i x, xs[i]? = some x → ∃ y, g x = .ok y ∧ P i y) :
    ∃ ys, xs.mapM g = .ok ys ∧ ys.length = xs.length ∧ ∀ i y, ys[i]? = some y → P i y := by
  induction xs generalizing P with
  | nil => exact ⟨[], rfl, rfl, by simp⟩
  | cons x t ih =>
    obtain ⟨y, h1, h2⟩ := h 0 x rfl
    obtain ⟨ys, e1, e2, e3⟩ := ih (fun i => P (i + 1)) (fun i z hz => h (i + 1) z (by simpa using hz))
    refine ⟨y :: ys, ?_, by simp [e2], ?_⟩
    · rw [List.mapM_cons, h1, e1]; rfl
    · intro i z hz
      cases i with
      | zero => simp at hz; rw [← hz]; exact h2
      | succ i => exact e3 i z (by simpa using hz)

/-- writing an index and reading it: the objects that are merged -/
theorem index_files {C : Type} (wr : Harm K → Option C → Except Err C) (rd : C → Except Err (Harm K)) (home cwd : Path)
    (h : Harm K) (n : ℕ) (hnt : h.nt = some n) (hwf : h.WF) (P : ℕ → Harm K → Prop)
    (hcodec : ∀ i, i < n → ∀ old, ∃ c o, wr (dateField h i) old = .ok c ∧ rd c = .ok o ∧ o.nt = none ∧ P i o)
    (files : List Path) (hk : files.length ≤ n) (hnd : files.Nodup) (hv : ∀ f ∈ files, Valid f) (fs : Path → Option C) :
    ∃ fs' txt objs, toIndex (some wr) home h files fs = .ok (fs', txt) ∧ (∀ f, f ∉ files → fs' f = fs f) ∧
      objs.length = files.length ∧ (∀ i o, objs[i]? = some o → o.nt = none ∧ P i o) ∧
      ∀ p, fromIndex (some rd) home cwd fs' txt p = liftErr (fromList objs p) := by
  obtain ⟨fs', e1, e2, e3⟩ := toIndex_loop wr rd home h n hnt hwf (fun i o => o.nt = none ∧ P i o) hcodec files 0 fs []
    (by omega) hnd
  rw [List.nil_append] at e1
  obtain ⟨objs, r1, r2, r3⟩ := mapM_ok (readEntry rd home cwd fs') (files.map (compress home)) (fun i o => o.nt = none ∧ P i o)
    (by
      intro i x hx
      rw [List.getElem?_map, Option.map_eq_some_iff] at hx
      obtain ⟨f, hf, rfl⟩ := hx
      obtain ⟨c, o, h1, h2, h3⟩ := e2 i f hf
      refine ⟨o, ?_, by simpa using h3⟩
      unfold readEntry
      rw [resolve_compress home cwd f (hv f (List.mem_of_getElem? hf)), h1]
      exact h2)
  refine ⟨fs', indexText home files, objs, e1, e3, by simpa using r2, r3, ?_⟩
  intro p
  unfold fromIndex readEntries
  simp only
  rw [indexText_lines home files hv, r1]
  simp only [bind, Except.bind]
  rw [if_neg]
  simp only [List.any_eq_true, not_exists, not_and, Bool.not_eq_true]
  intro o ho
  obtain ⟨i, hi⟩ := List.mem_iff_getElem?.1 ho
  rw [(r3 i o hi).1]
  rfl

end Verif.HarmIO.Data
