import Verif.Graz.Props

/-!
# Property C119: the index files of the mirror
-/
namespace Verif.Graz
open Verif.Names Verif.Sync

variable (w : Env) (o : Opts)

/-- the indices of other folders do not change a folder -/
theorem indices_other (v : String) (q : String × String) : ∀ (ds : List String) (s : Store),
    (∀ d ∈ ds, q ≠ (v, d)) → (ds.foldl (writeIndex w v) s) q = s q := by
  intro ds
  induction ds with
  | nil => intro s _; rfl
  | cons d ds ih =>
    intro s h
    rw [List.foldl_cons, ih _ (fun d' hd => h d' (by simp [hd]))]
    unfold writeIndex
    rw [if_neg (h d (by simp))]

theorem indices_one (v ds : String) (hd : ds ∈ products) (s : Store) :
    (products.foldl (writeIndex w v) s) (v, ds) =
      (s (v, ds)).map fun f => put f indexName ⟨w.enc (linesText (indexNames f)), w.now⟩ := by
  have key : ∀ (pre post : List String), products = pre ++ ds :: post → ds ∉ pre → ds ∉ post →
      (products.foldl (writeIndex w v) s) (v, ds) =
        (s (v, ds)).map fun f => put f indexName ⟨w.enc (linesText (indexNames f)), w.now⟩ := by
    intro pre post e h1 h2
    rw [e, List.foldl_append, List.foldl_cons, indices_other w v _ post _ (fun d hd' c => h2 (by rw [(Prod.mk.inj c).2]; exact hd'))]
    have ho := indices_other w v (v, ds) pre s (fun d hd' c => h1 (by rw [(Prod.mk.inj c).2]; exact hd'))
    generalize pre.foldl (writeIndex w v) s = t at ho
    unfold writeIndex
    rw [if_pos rfl, ho]
  simp only [products, List.mem_cons, List.not_mem_nil, or_false] at hd
  rcases hd with rfl | rfl | rfl | rfl | rfl
  · exact key [] ["GAB", "GAC", "GAD", "GSM"] rfl (by decide) (by decide)
  · exact key ["GAA"] ["GAC", "GAD", "GSM"] rfl (by decide) (by decide)
  · exact key ["GAA", "GAB"] ["GAD", "GSM"] rfl (by decide) (by decide)
  · exact key ["GAA", "GAB", "GAC"] ["GSM"] rfl (by decide) (by decide)
  · exact key ["GAA", "GAB", "GAC", "GAD"] [] rfl (by decide) (by decide)

/-- C119: after a run without error the folder of the fields and that of every dealiasing product seen exist, and every
folder of the version that exists has an index: its lines are, in order of names, exactly the files of the folder whose
names begin as the pattern says -/
theorem sync_index (srv : Server) (release : String) (lmax : ℕ) (s s' : Store)
    (h : sync w o srv release lmax s = (s', none)) :
    ∃ v, drel release = some v ∧ (s' (v, "GSM")).isSome = true ∧
      ∀ ds ∈ products, (s' (v, ds)).isSome = true →
        ∃ L : List Name, kept s' (v, ds) indexName = some ⟨w.enc (linesText L), w.now⟩ ∧ L.Pairwise (· ≤ ·) ∧
          ∀ n, n ∈ L ↔ kept s' (v, ds) n ≠ none ∧ accepts rx n = true := by
  obtain ⟨v, bs, ms, s1, hv, -, -, -, rfl⟩ := sync_parts w o srv release lmax s s' h
  have hacc : accepts rx indexName = false := accepts_index indexName (by simp)
  refine ⟨v, hv, ?_, ?_⟩
  · unfold fields
    rw [indices_one w v "GSM" (by decide)]
    simp only [Option.isSome_map]
    have : ∀ (rs : List Remote) (s : Store), ((rs.foldl (fetch w o (v, "GSM")) s) (v, "GSM")).isSome =
        (s (v, "GSM")).isSome := by
      intro rs
      induction rs with
      | nil => intro s; rfl
      | cons r rs ih => intro s; rw [List.foldl_cons, ih, fetch_isSome]
    rw [this]
    exact mkdir_some _ _
  · intro ds hds hsome
    unfold fields at hsome ⊢
    set t := (listing ms).foldl (fetch w o (v, "GSM")) (mkdir s1 (v, "GSM")) with ht
    rw [indices_one w v ds hds] at hsome
    simp only [Option.isSome_map] at hsome
    obtain ⟨f, hf⟩ := Option.isSome_iff_exists.1 hsome
    refine ⟨indexNames f, ?_, ?_, ?_⟩
    · unfold kept
      rw [indices_one w v ds hds, hf]
      simp only [Option.map_some, Option.bind_some]
      rw [lookup_put, if_pos rfl]
    · unfold indexNames sortNames
      exact List.pairwise_insertionSort _ _
    · intro n
      unfold kept
      rw [indices_one w v ds hds, hf]
      simp only [Option.map_some, Option.bind_some]
      unfold indexNames sortNames
      rw [List.mem_insertionSort, List.mem_filter, lookup_put]
      by_cases hn : n = indexName
      · subst hn
        rw [hacc]
        simp
      · rw [if_neg hn, lookup_ne_none]

/-- C119: every name from Graz is listed, and so is every longer name, for example that of an unfinished copy -/
theorem listed_names (n : Gfc.ItsgName) (h : n.Ok true) (rest : Name) : accepts rx (n.text ++ rest) = true := by
  obtain ⟨c, hc, -⟩ := Gfc.first_itsg_all true n h
  have hne : NoEnd rx := by
    unfold rx Gfc.itsgRe
    have hlit : ∀ u : List Char, NoEnd (Gfc.litF true u) := by
      intro u
      induction u with
      | nil => trivial
      | cons a u ih => exact ⟨trivial, ih⟩
    rw [noEnd_cat]
    intro e he
    simp only [List.mem_cons, List.not_mem_nil, or_false] at he
    rcases he with rfl | rfl | rfl | rfl | rfl | rfl | rfl | rfl | rfl
    · refine noEnd_oneOf _ fun e he => ?_
      simp only [List.mem_cons, List.not_mem_nil, or_false] at he
      rcases he with rfl | rfl | rfl
      · rw [noEnd_cat]
        intro e he
        simp only [List.mem_cons, List.not_mem_nil, or_false] at he
        rcases he with rfl | rfl
        · exact hlit _
        · exact noEnd_digits
      · exact hlit _
      · exact hlit _
    · trivial
    · refine noEnd_oneOf _ fun e he => ?_
      obtain ⟨p, _, rfl⟩ := List.mem_map.1 he
      exact hlit _
    · refine ⟨?_, trivial⟩
      show NoEnd (cat _)
      rw [noEnd_cat]
      intro e he
      simp only [List.mem_cons, List.not_mem_nil, or_false] at he
      rcases he with rfl | rfl
      · exact hlit _
      · exact noEnd_digits
    · exact hlit _
    · exact noEnd_digits
    · exact hlit _
    · exact noEnd_digits
    · exact hlit _
  have hl := (runs_lang rx hne n.text []).1
  rw [accepts_prefix rx hne]
  obtain ⟨l, hl'⟩ := (first_iff ..).1 hc
  have hmem : (c, ([] : List Char)) ∈ runs rx n.text := by unfold rx; rw [hl']; simp
  obtain ⟨u, e, hu⟩ := hl ⟨c, hmem⟩
  rw [List.append_nil] at e
  exact ⟨u, rest, by rw [e], hu⟩

/-- C119: nothing is deleted, also by a run that ends with an error -/
theorem sync_keeps (srv : Server) (release : String) (lmax : ℕ) (s : Store) (k : String × String) (n : Name)
    (h : kept s k n ≠ none) : kept (sync w o srv release lmax s).1 k n ≠ none := by
  unfold sync
  rcases hd : srv.dealias release with _ | bs
  · exact h
  dsimp only
  have hb := background_keeps w o (drel release) (listing bs) s k n h
  rcases hbg : background w o (drel release) (listing bs) s with ⟨s1, _ | e⟩
  · rw [hbg] at hb
    dsimp only at hb ⊢
    rcases hm : srv.monthly release lmax with _ | ms
    · exact hb
    dsimp only
    rcases hv : drel release with _ | v
    · exact hb
    dsimp only
    have hf : ∀ (rs : List Remote) (t : Store), (t (v, "GSM")).isSome = true → kept t k n ≠ none →
        kept (rs.foldl (fetch w o (v, "GSM")) t) k n ≠ none := by
      intro rs
      induction rs with
      | nil => intro t _ ht; exact ht
      | cons r rs ih =>
        intro t hs ht
        rw [List.foldl_cons]
        apply ih _ (by rw [fetch_isSome]; exact hs)
        rw [kept_fetch w o _ _ r hs]
        split_ifs with c
        · intro hn
          obtain ⟨rfl, rfl⟩ := c
          exact ht (pulled_none w o r _ hn)
        · exact ht
    have h1 : kept ((listing ms).foldl (fetch w o (v, "GSM")) (mkdir s1 (v, "GSM"))) k n ≠ none :=
      hf _ _ (mkdir_some _ _) (by rw [kept_mkdir]; exact hb)
    have hi : ∀ (ds : List String) (t : Store), kept t k n ≠ none → kept (ds.foldl (writeIndex w v) t) k n ≠ none := by
      intro ds
      induction ds with
      | nil => intro t ht; exact ht
      | cons d ds ih =>
        intro t ht
        rw [List.foldl_cons]
        apply ih
        unfold kept writeIndex
        by_cases c : k = (v, d)
        · subst c
          rw [if_pos rfl]
          unfold kept at ht
          rcases hk : t (v, d) with _ | f
          · rw [hk] at ht; exact absurd rfl ht
          · rw [hk] at ht
            simp only [Option.map_some, Option.bind_some] at ht ⊢
            rw [lookup_put]
            split_ifs
            · simp
            · exact ht
        · rw [if_neg c]; exact ht
    exact hi _ _ h1
  · rw [hbg] at hb; exact hb

/-- C119 (deviation): the fields of all maximum degrees share one folder and one index, and those of Grace2018 and
Grace_operational as well: after a run with one choice and a run with another, the index of the second names the files
of both, whatever their months -/
theorem sync_mixed (w' : Env) (o' : Opts) (hl : o.LIST = false) (srv srv' : Server) (release release' : String)
    (lmax lmax' : ℕ) (s s1 s2 : Store) (h1 : sync w o srv release lmax s = (s1, none))
    (h2 : sync w' o' srv' release' lmax' s1 = (s2, none)) (hv : drel release' = drel release)
    (bs ms : List Remote) (hb : srv.dealias release = some bs) (hm : srv.monthly release lmax = some ms)
    (db : Distinct bs) (dm : Distinct ms) :
    ∃ v L, drel release' = some v ∧ kept s2 (v, "GSM") indexName = some ⟨w'.enc (linesText L), w'.now⟩ ∧
      ∀ n : Gfc.ItsgName, n.Ok true →
        ((∃ r ∈ ms, r.name = n.text) ∨ kept s2 (v, "GSM") n.text ≠ none) → n.text ∈ L := by
  obtain ⟨v, hv', hs, hidx⟩ := sync_index w' o' srv' release' lmax' s1 s2 h2
  obtain ⟨L, hL, -, hmem⟩ := hidx "GSM" (by decide) hs
  refine ⟨v, L, hv', hL, fun n hn hc => (hmem n.text).2 ⟨?_, by simpa using listed_names n hn []⟩⟩
  rcases hc with ⟨r, hr, e⟩ | hc
  · obtain ⟨v1, hv1, -, hf, -⟩ := sync_files w o srv release lmax s s1 h1 bs ms hb hm db dm
    obtain rfl : v1 = v := by rw [hv, hv1] at hv'; exact Option.some.inj hv'
    have hsr : searches r.name = true := by
      unfold searches
      rw [List.any_eq_true]
      exact ⟨r.name, by simp [List.mem_tails], by rw [e]; simpa using listed_names n hn []⟩
    have hk : kept s1 (v1, "GSM") r.name ≠ none := by
      rw [hf r hr hsr, pulled_eq, hl]
      intro hnone
      simp only [Bool.not_false, Bool.and_true] at hnone
      by_cases c : kept s (v1, "GSM") r.name = none
      · rw [c] at hnone
        simp [wanted, test] at hnone
      · split_ifs at hnone with c'
        exact c hnone
    have := sync_keeps w' o' srv' release' lmax' s1 (v1, "GSM") r.name hk
    rw [h2, e] at this
    exact this
  · exact hc

theorem background_other (ver : Option String) (k : String × String) (n : Name) (hk : k.2 = "GSM" ∨ n = indexName) :
    ∀ (rs : List Remote) (s : Store), (∀ r ∈ rs, searches r.name = true) →
      kept (background w o ver rs s).1 k n = kept s k n := by
  intro rs
  induction rs with
  | nil => intro s _; rfl
  | cons a rs ih =>
    intro s h
    unfold background
    rcases hf : folderOf a.name with e | ds
    · rfl
    rcases hv : ver with _ | v
    · rfl
    · dsimp only
      rw [hv] at ih
      rw [ih _ (fun r hr => h r (by simp [hr])), kept_fetch w o _ _ a (mkdir_some s _), kept_mkdir, kept_mkdir, if_neg]
      rintro ⟨rfl, rfl⟩
      rcases hk with hk | hk
      · exact folder_ne_fields _ _ hf hk
      · exact searched_ne_index _ (h a (by simp)) hk

/-- C119 (deviation): one dealiasing file without folder stops the run: no field is transferred and no index is written,
although the remote fields are in order -/
theorem sync_refused (srv : Server) (release : String) (lmax : ℕ) (s : Store) (bs : List Remote)
    (hb : srv.dealias release = some bs) (r : Remote) (hr : r ∈ bs) (hs : searches r.name = true)
    (hf : ∀ ds, folderOf r.name ≠ .ok ds) :
    (sync w o srv release lmax s).2 ≠ none ∧
      ∀ k n, k.2 = "GSM" ∨ n = indexName → kept (sync w o srv release lmax s).1 k n = kept s k n := by
  have hne : (background w o (drel release) (listing bs) s).2 ≠ none := by
    intro h
    obtain ⟨⟨ds, e⟩, -⟩ := (background_ok w o _ _ s).1 h r ((mem_listing bs r).2 ⟨hr, hs⟩)
    exact hf ds e
  have hk := fun k n (h : k.2 = "GSM" ∨ n = indexName) => background_other w o (drel release) k n h (listing bs) s
    (fun r hr => ((mem_listing bs r).1 hr).2)
  unfold sync
  rw [hb]
  dsimp only
  rcases hbg : background w o (drel release) (listing bs) s with ⟨s1, _ | e⟩
  · rw [hbg] at hne; exact absurd rfl hne
  · rw [hbg] at hk
    exact ⟨by simp, hk⟩

/-- non-vacuity: the name in capitals is found by the listing and has no folder -/
example : searches "model_OCEAN_2002-04.gfc".toList = true ∧
    ∀ ds, folderOf "model_OCEAN_2002-04.gfc".toList ≠ .ok ds := by
  refine ⟨by decide +kernel, fun ds h => ?_⟩
  have : folderOf "model_OCEAN_2002-04.gfc".toList = .error .key := rfl
  rw [this] at h
  cases h

/-! ## A server -/

/-- two dealiasing files and one month of fields with degrees 60 and 96 -/
def demo : Server where
  dealias := fun _ => some [⟨"model_oceanBottomPressure_2002-04.gfc".toList, [1], 10⟩,
    ⟨"AOD1B_RL06_ocean_n60_2002-04.gfc".toList, [2], 10⟩, ⟨"readme.txt".toList, [3], 10⟩]
  monthly := fun _ L => if L = 60 then some [⟨"ITSG-Grace2018_n60_2002-04.gfc".toList, [4], 20⟩]
    else some [⟨"ITSG-Grace2018_n96_2002-04.gfc".toList, [5], 20⟩]

/-- transfers that deliver everything; the encoding of ASCII -/
def demoEnv : Env where
  x := fun n => ⟨if n = "ITSG-Grace2018_n60_2002-04.gfc".toList then [[4]] else [[7]], fun _ => 0⟩
  now := 30
  enc := fun t => t.map fun c => UInt8.ofNat c.toNat

/-- no folders -/
def empty : Store := fun _ => none

/-- non-vacuity: a run with degree 60, then one with degree 96: the files are where they belong, and the index of the
fields has the month twice -/
example :
    (sync demoEnv {} demo "Grace2018" 60 empty).2 = none ∧
    ((sync demoEnv {} demo "Grace2018" 60 empty).1 ("2018", "GAD")).isSome = true ∧
    kept (sync demoEnv {} demo "Grace2018" 60 empty).1 ("2018", "GAB") "readme.txt".toList = none := by
  refine ⟨?_, ?_, ?_⟩ <;> decide +kernel

example :
    (kept (sync demoEnv {} demo "Grace_operational" 96 (sync demoEnv {} demo "Grace2018" 60 empty).1).1 ("2018", "GSM")
      indexName).map LFile.data =
      some (demoEnv.enc "ITSG-Grace2018_n60_2002-04.gfc\nITSG-Grace2018_n96_2002-04.gfc\n".toList) := by
  decide +kernel

/-- non-vacuity of the table: three names of the server, one in capitals that is refused -/
example : folderOf "model_oceanBottomPressure_2002-04.gfc".toList = .ok "GAD" ∧
    folderOf "AOD1B_RL06_ocean_n60_2002-04.gfc".toList = .ok "GAB" ∧
    folderOf "model_OCEAN_2002-04.gfc".toList = .error .key := by
  refine ⟨rfl, rfl, rfl⟩

end Verif.Graz
