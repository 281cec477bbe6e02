import Verif.Graz.Model
import Verif.Gfc.Match
import Verif.Sync.Props

/-!
# Lemmas on the mirror of the files from Graz
-/
namespace Verif.Graz
open Verif.Names Verif.Sync

/-- the file of a folder; `none`: there is no such file or folder -/
def kept (s : Store) (k : String × String) (n : Name) : Option LFile := (s k).bind fun f => f.lookup n

/-! ## Folders -/

theorem lookup_map_put (n : Name) (x : LFile) (m : Name) : ∀ f : Folder, f.any (fun e => e.1 == n) = true →
    (f.map fun e => if e.1 = n then (n, x) else e).lookup m = if m = n then some x else f.lookup m := by
  intro f
  induction f with
  | nil => intro h; simp at h
  | cons e f ih =>
    intro h
    obtain ⟨a, y⟩ := e
    by_cases ha : a = n
    · subst ha
      by_cases hm : m = a
      · subst hm
        simp [List.lookup]
      · have hb : (m == a) = false := by simp [hm]
        simp only [List.map_cons, if_true, List.lookup_cons, hb, if_neg hm]
        by_cases hf : f.any (fun e => e.1 == a) = true
        · rw [ih hf, if_neg hm]
        · have : f.map (fun e => if e.1 = a then (a, x) else e) = f := by
            rw [List.map_congr_left (g := id) ?_, List.map_id]
            intro e he
            rw [if_neg]
            · rfl
            · intro h'
              apply hf
              rw [List.any_eq_true]
              exact ⟨e, he, by simp [h']⟩
          rw [this]
    · have hf : f.any (fun e => e.1 == n) = true := by
        simpa [ha] using h
      simp only [List.map_cons, if_neg ha, List.lookup_cons]
      by_cases hm : m = a
      · subst hm
        simp [ha]
      · have hb : (m == a) = false := by simp [hm]
        simp only [hb]
        exact ih hf

theorem lookup_put (f : Folder) (n : Name) (x : LFile) (m : Name) :
    (put f n x).lookup m = if m = n then some x else f.lookup m := by
  unfold put
  by_cases h : f.any (fun e => e.1 == n) = true
  · rw [if_pos h]
    exact lookup_map_put n x m f h
  · rw [if_neg h, List.lookup_append]
    by_cases hm : m = n
    · subst hm
      have : f.lookup m = none := by
        rw [List.lookup_eq_none_iff]
        intro e he
        simp only [Bool.not_eq_true, List.any_eq_false, beq_eq_false_iff_ne, ne_eq] at h
        simp only [bne_iff_ne, ne_eq]
        intro h'
        exact h e he (by simp [h'])
      rw [this]
      simp [List.lookup]
    · have hb : (m == n) = false := by simp [hm]
      simp [List.lookup, hb, hm]

theorem names_put (f : Folder) (n : Name) (x : LFile) :
    (put f n x).map Prod.fst = if n ∈ f.map Prod.fst then f.map Prod.fst else f.map Prod.fst ++ [n] := by
  unfold put
  have e : f.any (fun e => e.1 == n) = true ↔ n ∈ f.map Prod.fst := by
    simp only [List.any_eq_true, beq_iff_eq, List.mem_map]
  by_cases h : n ∈ f.map Prod.fst
  · rw [if_pos (e.2 h), if_pos h, List.map_map]
    apply List.map_congr_left
    intro a _
    simp only [Function.comp_apply]
    by_cases ha : a.1 = n
    · rw [if_pos ha, ha]
    · rw [if_neg ha]
  · rw [if_neg (fun h' => h (e.1 h')), if_neg h]
    simp

theorem nodup_put (f : Folder) (n : Name) (x : LFile) (h : (f.map Prod.fst).Nodup) : ((put f n x).map Prod.fst).Nodup := by
  rw [names_put]
  by_cases hm : n ∈ f.map Prod.fst
  · rw [if_pos hm]; exact h
  · rw [if_neg hm, List.nodup_append]
    refine ⟨h, by simp, ?_⟩
    intro a ha b hb
    simp only [List.mem_singleton] at hb
    subst hb
    rintro rfl
    exact hm ha

theorem lookup_ne_none (f : Folder) (n : Name) : f.lookup n ≠ none ↔ n ∈ f.map Prod.fst := by
  rw [ne_eq, List.lookup_eq_none_iff]
  simp only [bne_iff_ne, ne_eq, not_forall, not_not, List.mem_map]
  constructor
  · rintro ⟨e, he, h⟩; exact ⟨e, he, h.symm⟩
  · rintro ⟨e, he, h⟩; exact ⟨e, he, h.symm⟩

/-! ## Steps -/

theorem kept_mkdir (s : Store) (k q : String × String) (n : Name) : kept (mkdir s k) q n = kept s q n := by
  unfold kept mkdir
  by_cases h : q = k
  · subst h
    rw [if_pos rfl]
    rcases s q with _ | f <;> rfl
  · rw [if_neg h]

theorem mkdir_some (s : Store) (k : String × String) : ((mkdir s k) k).isSome = true := by
  unfold mkdir; rw [if_pos rfl]; rfl

theorem mkdir_keeps (s : Store) (k q : String × String) (h : (s q).isSome = true) : ((mkdir s k) q).isSome = true := by
  unfold mkdir
  by_cases e : q = k
  · rw [if_pos e]; rfl
  · rw [if_neg e]; exact h

variable (w : Env) (o : Opts)

/-- what a transfer leaves: the file as delivered with the time of the server, if it was missing or older or the
overwriting option is set, and what was there otherwise -/
theorem pulled_eq (r : Remote) (f : Option LFile) :
    pulled w o r f = if wanted (H := Utilities.Bytes) id { o with CHECKSUM := false } r f && !o.LIST then
      some ⟨(w.x r.name).chunks.flatten, r.mtime⟩ else f := pull_whole ..

theorem pulled_none (r : Remote) (f : Option LFile) (h : pulled w o r f = none) : f = none := by
  rw [pulled_eq] at h
  by_cases c : (wanted (H := Utilities.Bytes) id { o with CHECKSUM := false } r f && !o.LIST) = true
  · rw [if_pos c] at h; cases h
  · rw [if_neg c] at h; exact h

theorem kept_fetch (k : String × String) (s : Store) (r : Remote) (hs : (s k).isSome = true) (q : String × String)
    (n : Name) : kept (fetch w o k s r) q n =
      if q = k ∧ n = r.name then pulled w o r (kept s k r.name) else kept s q n := by
  unfold kept fetch
  by_cases h : q = k
  · subst h
    rw [if_pos rfl]
    obtain ⟨f, hf⟩ := Option.isSome_iff_exists.1 hs
    rw [hf]
    simp only [Option.map_some, Option.bind_some]
    rcases hp : pulled w o r (f.lookup r.name) with _ | x
    · dsimp only
      by_cases hn : n = r.name
      · rw [if_pos ⟨trivial, hn⟩, hn, pulled_none w o r _ hp]
      · rw [if_neg (fun c => hn c.2)]
    · dsimp only
      rw [lookup_put]
      by_cases hn : n = r.name
      · rw [if_pos hn, if_pos ⟨trivial, hn⟩]
      · rw [if_neg hn, if_neg (fun c => hn c.2)]
  · rw [if_neg h, if_neg (fun c => h c.1)]

theorem fetch_isSome (k : String × String) (s : Store) (r : Remote) (q : String × String) :
    ((fetch w o k s r) q).isSome = (s q).isSome := by
  unfold fetch
  by_cases h : q = k
  · subst h; rw [if_pos rfl]; simp
  · rw [if_neg h]

theorem kept_writeIndex (v : String) (s : Store) (ds : String) (q : String × String) (n : Name) (hn : n ≠ indexName) :
    kept (writeIndex w v s ds) q n = kept s q n := by
  unfold kept writeIndex
  by_cases h : q = (v, ds)
  · subst h
    rw [if_pos rfl]
    rcases s (v, ds) with _ | f
    · rfl
    · simp only [Option.map_some, Option.bind_some]
      rw [lookup_put, if_neg hn]
  · rw [if_neg h]

theorem kept_indices (v : String) (n : Name) (hn : n ≠ indexName) (q : String × String) : ∀ (ds : List String) (s : Store),
    kept (ds.foldl (writeIndex w v) s) q n = kept s q n := by
  intro ds
  induction ds with
  | nil => intro s; rfl
  | cons d ds ih => intro s; rw [List.foldl_cons, ih, kept_writeIndex w v s d q n hn]

/-! ## The loop over the fields -/

theorem kept_fetches (k q : String × String) (n : Name) : ∀ (rs : List Remote) (s : Store), (s k).isSome = true →
    rs.Pairwise (fun a b => a.name ≠ b.name) →
    (∀ r ∈ rs, q = k → n = r.name → kept (rs.foldl (fetch w o k) s) q n = pulled w o r (kept s k n)) ∧
    ((∀ r ∈ rs, ¬ (q = k ∧ n = r.name)) → kept (rs.foldl (fetch w o k) s) q n = kept s q n) := by
  intro rs
  induction rs with
  | nil => intro s _ _; exact ⟨fun r hr => by simp at hr, fun _ => rfl⟩
  | cons a rs ih =>
    intro s hs hp
    rw [List.pairwise_cons] at hp
    have hs' : ((fetch w o k s a) k).isSome = true := by rw [fetch_isSome]; exact hs
    obtain ⟨i1, i2⟩ := ih (fetch w o k s a) hs' hp.2
    rw [List.foldl_cons]
    constructor
    · intro r hr hq hn
      rcases List.mem_cons.1 hr with e | e
      · subst e
        rw [i2 (fun b hb c => hp.1 b hb (hn.symm.trans c.2)), kept_fetch w o k s r hs, if_pos ⟨hq, hn⟩, hn]
      · rw [i1 r e hq hn, kept_fetch w o k s a hs, if_neg (fun c => hp.1 r e (c.2.symm.trans hn))]
    · intro h
      rw [i2 (fun b hb => h b (by simp [hb])), kept_fetch w o k s a hs, if_neg (h a (by simp))]

/-! ## The loop over the dealiasing files -/

theorem background_effect (ver : Option String) : ∀ (rs : List Remote) (s s' : Store),
    background w o ver rs s = (s', none) → rs.Pairwise (fun a b => a.name ≠ b.name) →
    (∀ r ∈ rs, ∃ v ds, ver = some v ∧ folderOf r.name = .ok ds ∧ (s' (v, ds)).isSome = true ∧
      kept s' (v, ds) r.name = pulled w o r (kept s (v, ds) r.name)) ∧
    (∀ k n, (∀ r ∈ rs, ∀ v ds, ver = some v → folderOf r.name = .ok ds → ¬ (k = (v, ds) ∧ n = r.name)) →
      kept s' k n = kept s k n) ∧
    (∀ k, (s k).isSome = true → (s' k).isSome = true) := by
  intro rs
  induction rs with
  | nil =>
    intro s s' h _
    obtain ⟨rfl, -⟩ := Prod.mk.inj h
    exact ⟨fun r hr => by simp at hr, fun _ _ _ => rfl, fun _ h => h⟩
  | cons a rs ih =>
    intro s s' h hp
    rw [List.pairwise_cons] at hp
    unfold background at h
    rcases hf : folderOf a.name with e | ds
    · rw [hf] at h; simp at h
    rw [hf] at h
    rcases hv : ver with _ | v
    · rw [hv] at h; simp at h
    rw [hv] at h
    dsimp only at h
    rw [← hv] at h
    have hm := mkdir_some s (v, ds)
    obtain ⟨i1, i2, i3⟩ := ih _ s' h hp.2
    have hk : ∀ k n, kept (fetch w o (v, ds) (mkdir s (v, ds)) a) k n =
        if k = (v, ds) ∧ n = a.name then pulled w o a (kept s (v, ds) a.name) else kept s k n := by
      intro k n
      rw [kept_fetch w o _ _ a hm, kept_mkdir, kept_mkdir]
    refine ⟨?_, ?_, ?_⟩
    · intro r hr
      rcases List.mem_cons.1 hr with e | e
      · subst e
        refine ⟨v, ds, rfl, hf, i3 _ (by rw [fetch_isSome]; exact hm), ?_⟩
        rw [i2 (v, ds) r.name (fun b hb v' ds' _ _ c => hp.1 b hb c.2), hk, if_pos ⟨rfl, rfl⟩]
      · obtain ⟨v', ds', h1, h2, h3, h4⟩ := i1 r e
        refine ⟨v', ds', by rw [← h1, hv], h2, h3, ?_⟩
        rw [h4, hk, if_neg (fun c => hp.1 r e c.2.symm)]
    · intro k n hn
      rw [i2 k n (fun b hb v' ds' e1 e2 => hn b (by simp [hb]) v' ds' (by rw [← e1, hv]) e2), hk,
        if_neg (hn a (by simp) v ds rfl hf)]
    · intro k hs
      apply i3
      rw [fetch_isSome]
      exact mkdir_keeps s _ k hs

/-- the loop ends without error exactly when every file has a folder and the release is known (or there are no files) -/
theorem background_ok (ver : Option String) : ∀ (rs : List Remote) (s : Store),
    (background w o ver rs s).2 = none ↔ ∀ r ∈ rs, (∃ ds, folderOf r.name = .ok ds) ∧ ver ≠ none := by
  intro rs
  induction rs with
  | nil => intro s; simp [background]
  | cons a rs ih =>
    intro s
    unfold background
    rcases hf : folderOf a.name with e | ds
    · simp [hf]
    rcases hv : ver with _ | v
    · simp only [reduceCtorEq, false_iff, not_forall]
      exact ⟨a, by simp, fun c => c.2 rfl⟩
    · dsimp only
      rw [hv] at ih
      rw [ih]
      simp [hf]

/-- nothing is ever deleted, also when the loop stops with an error -/
theorem background_keeps (ver : Option String) : ∀ (rs : List Remote) (s : Store) (k : String × String) (n : Name),
    kept s k n ≠ none → kept (background w o ver rs s).1 k n ≠ none := by
  intro rs
  induction rs with
  | nil => intro s k n h; exact h
  | cons a rs ih =>
    intro s k n h
    unfold background
    rcases hf : folderOf a.name with e | ds
    · exact h
    rcases hv : ver with _ | v
    · exact h
    · dsimp only
      rw [hv] at ih
      apply ih
      rw [kept_fetch w o _ _ a (mkdir_some s _), kept_mkdir]
      split_ifs with c
      · intro hn
        have := pulled_none w o a _ hn
        obtain ⟨rfl, rfl⟩ := c
        exact h this
      · rw [kept_mkdir]; exact h

/-! ## The listing -/

theorem mem_listing (rs : List Remote) (r : Remote) : r ∈ listing rs ↔ r ∈ rs ∧ searches r.name = true := by
  unfold listing
  rw [List.mem_insertionSort]
  simp

theorem listing_distinct (rs : List Remote) (h : rs.Pairwise fun a b => a.name ≠ b.name) :
    (listing rs).Pairwise fun a b => a.name ≠ b.name := by
  unfold listing
  refine (List.perm_insertionSort _ _).pairwise_iff ?_ |>.2 (h.filter _)
  intro a b hab
  exact hab.symm

theorem accepts_index : ∀ t ∈ indexName.tails, accepts rx t = false := by
  decide +kernel

theorem index_not_searched : searches indexName = false := by
  unfold searches
  rw [List.any_eq_false]
  intro t ht
  rw [accepts_index t ht]
  simp

end Verif.Graz
