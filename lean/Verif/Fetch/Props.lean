import Verif.Fetch.Acts

/-!
# Downloads of auxiliary files (C109)
-/
namespace Verif.Fetch
open Verif.Utilities

variable (w : World)

/-! ## Center for Space Research -/

/-- the rows of the table that are asked for -/
def rows (vs : List String) : List (String × String × String) := csrTable.filter fun r => r.1 ∈ vs

/-- the files asked for, as they are written -/
def csrJobs (dir : Str) (page : Str → Bytes) (vs : List String) : List (Path × Bytes) :=
  (if vs.contains "SLR" then slrFiles.flatMap fun f => [(path [dir, f.getLastD []], page (path f))] else []) ++
    (if vs.contains "geocenter" then geoFiles.flatMap fun f => [(path [dir, "geocenter".toList, f.getLastD []], page (path f))] else [])

theorem slr_table : slrFiles.map (fun f => (path f, f.getLastD [])) =
    (csrTable.filter fun r => r.1 = "SLR").map fun r => (r.2.1.toList, r.2.2.toList) := by decide +kernel

theorem geo_table : geoFiles.map (fun f => (path f, "geocenter".toList ++ '/' :: f.getLastD [])) =
    (csrTable.filter fun r => r.1 = "geocenter").map fun r => (r.2.1.toList, r.2.2.toList) := by decide +kernel

theorem geo_plain : ∀ f ∈ geoFiles, (f.getLastD []).head? ≠ some '/' := by decide +kernel

theorem slr_jobs (dir : Str) (page : Str → Bytes) : (slrFiles.flatMap fun f => [(path [dir, f.getLastD []], page (path f))]) =
    (csrTable.filter fun r => r.1 = "SLR").map fun r => (below dir r.2.2, page r.2.1.toList) := by
  have h := congrArg (List.map fun x : Str × Str => (path [dir, x.2], page x.1)) slr_table
  rw [List.map_map, List.map_map] at h
  rw [← List.map_eq_flatMap]
  exact h

theorem geo_jobs (dir : Str) (page : Str → Bytes) :
    (geoFiles.flatMap fun f => [(path [dir, "geocenter".toList, f.getLastD []], page (path f))]) =
    (csrTable.filter fun r => r.1 = "geocenter").map fun r => (below dir r.2.2, page r.2.1.toList) := by
  have h := congrArg (List.map fun x : Str × Str => (path [dir, x.2], page x.1)) geo_table
  rw [List.map_map, List.map_map] at h
  rw [← List.map_eq_flatMap]
  refine Eq.trans ?_ h
  apply List.map_congr_left
  intro f hf
  simp only [Function.comp_apply]
  rw [path_two dir _ _ (by decide) (geo_plain f hf) (by decide) (by decide)]

theorem mem_csrJobs (dir : Str) (page : Str → Bytes) (vs : List String) (x : Path × Bytes) :
    x ∈ csrJobs dir page vs ↔ ∃ r ∈ csrTable, r.1 ∈ vs ∧ x = (below dir r.2.2, page r.2.1.toList) := by
  have hcases : ∀ r ∈ csrTable, r.1 = "SLR" ∨ r.1 = "geocenter" := by decide
  unfold csrJobs
  rw [slr_jobs, geo_jobs, List.mem_append]
  constructor
  · rintro (h | h)
    · split_ifs at h with hv
      · obtain ⟨r, hr, rfl⟩ := List.mem_map.1 h
        obtain ⟨h1, h2⟩ := List.mem_filter.1 hr
        refine ⟨r, h1, ?_, rfl⟩
        rw [decide_eq_true_eq] at h2
        rw [h2]; simpa using hv
      · simp at h
    · split_ifs at h with hv
      · obtain ⟨r, hr, rfl⟩ := List.mem_map.1 h
        obtain ⟨h1, h2⟩ := List.mem_filter.1 hr
        refine ⟨r, h1, ?_, rfl⟩
        rw [decide_eq_true_eq] at h2
        rw [h2]; simpa using hv
      · simp at h
  · rintro ⟨r, h1, h2, rfl⟩
    rcases hcases r h1 with h | h
    · left
      rw [if_pos (by rw [h] at h2; simpa using h2)]
      exact List.mem_map.2 ⟨r, List.mem_filter.2 ⟨h1, by simpa using h⟩, rfl⟩
    · right
      rw [if_pos (by rw [h] at h2; simpa using h2)]
      exact List.mem_map.2 ⟨r, List.mem_filter.2 ⟨h1, by simpa using h⟩, rfl⟩

theorem rel_plain : ∀ r ∈ csrTable, r.2.2.toList.head? ≠ some '/' := by decide +kernel

theorem rel_inj : ∀ r ∈ csrTable, ∀ r' ∈ csrTable, r.2.2.toList = r'.2.2.toList → r = r' := by decide +kernel

theorem below_inj (dir : Str) (r r' : String × String × String) (h : r ∈ csrTable) (h' : r' ∈ csrTable)
    (he : below dir r.2.2 = below dir r'.2.2) : r = r' :=
  rel_inj r h r' h' (path_inj dir _ _ (rel_plain r h) (rel_plain r' h') he)

/-- the server has the files that are asked for, all the time -/
def Serves (page : Str → Bytes) (vs : List String) : Prop :=
  ∀ r ∈ csrTable, r.1 ∈ vs → ∀ k, w.web k r.2.1.toList = .gives (page r.2.1.toList)

theorem slr_urls : ∀ f ∈ slrFiles, ∃ r ∈ csrTable, r.1 = "SLR" ∧ path f = r.2.1.toList := by decide +kernel

theorem geo_urls : ∀ f ∈ geoFiles, ∃ r ∈ csrTable, r.1 = "geocenter" ∧ path f = r.2.1.toList := by decide +kernel

theorem acts_csr {C : Bytes → Prop} (hH : Distinguishes w.H C) (dir version : Str) (vs : List String) (page : Str → Bytes)
    (hC : ∀ u, C (page u)) (hs : Serves w page vs) (l : List (Path × Bytes)) (hl : vs.contains "LRI" = true → Acts C (lri w dir version) l) :
    Acts C (csrParts w dir version vs) (csrJobs dir page vs ++ if vs.contains "LRI" then l else []) := by
  unfold csrParts csrJobs
  rw [List.append_assoc]
  refine acts_andThen (acts_when _ fun hv => ?_) (acts_andThen (acts_when _ fun hv => ?_) (acts_when _ hl))
  · refine acts_each _ _ _ fun f hf => acts_http w hH f _ _ (hC _) fun k => ?_
    obtain ⟨r, hr, h1, h2⟩ := slr_urls f hf
    rw [h2]
    exact hs r hr (by rw [h1]; simpa using hv) k
  · refine acts_each _ _ _ fun f hf => acts_http w hH f _ _ (hC _) fun k => ?_
    obtain ⟨r, hr, h1, h2⟩ := geo_urls f hf
    rw [h2]
    exact hs r hr (by rw [h1]; simpa using hv) k

/-- the names in the argument `variable` -/
def named : Variable → List String
  | .none => []
  | .str v => [v]
  | .list vs => vs

theorem fromCsr_named (dir version : Str) (v : Variable) (hv : v ≠ .none) : fromCsr w dir version v = csrParts w dir version (named v) := by
  cases v with
  | none => exact absurd rfl hv
  | str s => rfl
  | list l => rfl

/-- **C109** when the server has the files, a run of `from_csr` leaves each file of the groups asked for equal to the one on the
server, whatever was on the disk before, and changes no other file -/
theorem csr_mirror {C : Bytes → Prop} (hH : Distinguishes w.H C) (dir version : Str) (v : Variable) (hv : v ≠ .none)
    (hl : "LRI" ∉ named v) (page : Str → Bytes) (hC : ∀ u, C (page u)) (hs : Serves w page (named v)) (s : State) (hd : Within C s.2) :
    (fromCsr w dir version v s).2 = none ∧
    (∀ r ∈ csrTable, r.1 ∈ named v → contents (fromCsr w dir version v s).1.2 (below dir r.2.2) = some (page r.2.1.toList)) ∧
    (∀ q, (∀ r ∈ csrTable, r.1 ∈ named v → q ≠ below dir r.2.2) → (fromCsr w dir version v s).1.2 q = s.2 q) := by
  have hA := acts_csr w hH dir version (named v) page hC hs [] (fun h => absurd (by simpa using h) hl)
  have hn : (named v).contains "LRI" = false := by simpa using hl
  rw [hn] at hA
  simp only [Bool.false_eq_true, if_false, List.append_nil] at hA
  rw [fromCsr_named w dir version v hv]
  obtain ⟨h1, -, h3, h4, -⟩ := hA s hd
  refine ⟨h1, ?_, ?_⟩
  · intro r hr hrv
    apply h4
    refine lastOf_some _ (below dir r.2.2, page r.2.1.toList) ((mem_csrJobs dir page (named v) _).2 ⟨r, hr, hrv, rfl⟩) ?_
    rintro y hy hyp
    obtain ⟨r', hr', -, rfl⟩ := (mem_csrJobs dir page (named v) y).1 hy
    rw [below_inj dir r' r hr' hr hyp]
  · intro q hq
    apply h3
    apply lastOf_none
    rintro x hx rfl
    obtain ⟨r, hr, hrv, rfl⟩ := (mem_csrJobs dir page (named v) x).1 hx
    exact hq r hr hrv rfl

/-- **C109** a second run changes nothing, not even the times of the files -/
theorem csr_again {C : Bytes → Prop} (hH : Distinguishes w.H C) (dir version : Str) (v : Variable) (hv : v ≠ .none)
    (hl : "LRI" ∉ named v) (page : Str → Bytes) (hC : ∀ u, C (page u)) (hs : Serves w page (named v)) (s : State) (hd : Within C s.2) :
    (fromCsr w dir version v (fromCsr w dir version v s).1).1.2 = (fromCsr w dir version v s).1.2 := by
  have hm := csr_mirror w hH dir version v hv hl page hC hs s hd
  have hA := acts_csr w hH dir version (named v) page hC hs [] (fun h => absurd (by simpa using h) hl)
  have hn : (named v).contains "LRI" = false := by simpa using hl
  rw [hn] at hA
  simp only [Bool.false_eq_true, if_false, List.append_nil] at hA
  rw [fromCsr_named w dir version v hv] at hm ⊢
  refine (hA _ (hA s hd).2.1).2.2.2.2 ?_
  intro x hx
  obtain ⟨r, hr, hrv, rfl⟩ := (mem_csrJobs dir page (named v) x).1 hx
  exact hm.2.1 r hr hrv

/-- **C109** without a variable, which is the default, the call fails and downloads nothing; with names that it does not know it does
nothing and does not complain -/
theorem csr_nothing (dir version : Str) (s : State) :
    fromCsr w dir version .none s = (s, some .type) ∧
    ∀ vs : List String, "SLR" ∉ vs → "geocenter" ∉ vs → "LRI" ∉ vs → fromCsr w dir version (.list vs) s = (s, none) := by
  refine ⟨rfl, ?_⟩
  intro vs h1 h2 h3
  have e1 : vs.contains "SLR" = false := by simpa using h1
  have e2 : vs.contains "geocenter" = false := by simpa using h2
  have e3 : vs.contains "LRI" = false := by simpa using h3
  simp only [fromCsr, csrParts, e1, e2, e3, when_, Bool.false_eq_true, if_false, andThen, skip]

/-! ## Interrupted runs -/

/-- whatever the servers answer, a file that is not among those of a program keeps its contents and time -/
def Safe (P : Prog) (ps : List Path) : Prop := ∀ s q, q ∉ ps → (P s).1.2 q = s.2 q

theorem safe_andThen {P Q : Prog} {l l' : List Path} (hP : Safe P l) (hQ : Safe Q l') : Safe (andThen P Q) (l ++ l') := by
  intro s q hq
  rw [List.mem_append, not_or] at hq
  have h1 := hP s q hq.1
  unfold andThen
  rcases h : P s with ⟨t, e⟩
  rw [h] at h1
  cases e with
  | none => simp only; rw [hQ t q hq.2]; exact h1
  | some e => exact h1

theorem safe_each {A : Type} (f : A → Prog) (g : A → List Path) (l : List A) (h : ∀ a ∈ l, Safe (f a) (g a)) :
    Safe (each f l) (l.flatMap g) := by
  induction l with
  | nil => exact fun s q _ => rfl
  | cons a r ih =>
    rw [List.flatMap_cons]
    exact safe_andThen (h a (by simp)) (ih fun b hb => h b (by simp [hb]))

theorem fromHttp_other (H : Bytes → Str) (now : ℚ) (d : Disk) (p q : Path) (h : q ≠ p) (r : Reply) :
    (fromHttp H now d p r).1 q = d q := by
  cases r <;> simp only [fromHttp] <;> first | rfl | (split_ifs <;> first | exact Function.update_of_ne h _ _ | rfl)

theorem fromFtp_other (H : Bytes → Str) (other : Str → Option ℚ) (now : ℚ) (d : Disk) (p q : Path) (h : q ≠ p) (r : FtpReply) :
    (fromFtp H other now d p r).1 q = d q := by
  cases r with
  | refused => rfl
  | fails => rfl
  | file b m =>
    simp only [fromFtp]
    split_ifs
    · cases unixTime other (m.drop 4) <;> exact Function.update_of_ne h _ _
    · rfl
  | killed b n =>
    simp only [fromFtp]
    split_ifs <;> first | exact Function.update_of_ne h _ _ | rfl

theorem safe_http (url : List Str) (p : Path) : Safe (httpFile w url p) [p] := by
  intro s q hq
  have h := fromHttp_other w.H (w.clock s.1) s.2 p q (by simpa using hq) (w.web s.1 (path url))
  unfold httpFile
  rcases hf : fromHttp w.H (w.clock s.1) s.2 p (w.web s.1 (path url)) with ⟨d, e⟩
  rw [hf] at h
  cases e <;> exact h

theorem safe_ftp (host : List Str) (p : Path) : Safe (ftpFile w host p) [p] := by
  intro s q hq
  have h := fromFtp_other w.H w.other (w.clock s.1) s.2 p q (by simpa using hq) (w.ftp s.1 (path host))
  unfold ftpFile
  rcases hf : fromFtp w.H w.other (w.clock s.1) s.2 p (w.ftp s.1 (path host)) with ⟨d, e⟩
  rw [hf] at h
  cases e <;> exact h

theorem safe_when (b : Bool) {P : Prog} {l : List Path} (h : Safe P l) : Safe (when_ b P) (if b then l else []) := by
  cases b with
  | true => exact h
  | false => exact fun s q _ => rfl

/-- **C109** whatever the server answers, and wherever the run breaks off, only files of the groups asked for change -/
theorem csr_safe (dir version : Str) (v : Variable) (hl : "LRI" ∉ named v) (s : State) (q : Path)
    (hq : ∀ r ∈ csrTable, r.1 ∈ named v → q ≠ below dir r.2.2) : (fromCsr w dir version v s).1.2 q = s.2 q := by
  by_cases hv : v = .none
  · subst hv; rfl
  rw [fromCsr_named w dir version v hv]
  have hS : Safe (csrParts w dir version (named v)) ((csrJobs dir (fun _ => []) (named v)).map Prod.fst) := by
    have hn : (named v).contains "LRI" = false := by simpa using hl
    have h := safe_andThen (safe_when ((named v).contains "SLR") (safe_each (fun f => httpFile w f (path [dir, f.getLastD []]))
        (fun f => [path [dir, f.getLastD []]]) slrFiles fun f _ => safe_http w _ _))
      (safe_andThen (safe_when ((named v).contains "geocenter")
        (safe_each (fun f => httpFile w f (path [dir, "geocenter".toList, f.getLastD []]))
          (fun f => [path [dir, "geocenter".toList, f.getLastD []]]) geoFiles fun f _ => safe_http w _ _))
        (show Safe (when_ ((named v).contains "LRI") (lri w dir version)) [] by rw [hn]; exact fun s q _ => rfl))
    intro s q hq
    refine h s q ?_
    intro hm
    apply hq
    unfold csrJobs
    rw [List.map_append]
    rw [List.append_nil] at hm
    rcases List.mem_append.1 hm with hm | hm
    · apply List.mem_append_left
      split_ifs at hm ⊢ with hc
      · rw [List.map_flatMap]; exact hm
      · simp at hm
    · apply List.mem_append_right
      split_ifs at hm ⊢ with hc
      · rw [List.map_flatMap]; exact hm
      · simp at hm
  refine hS s q ?_
  intro hm
  obtain ⟨x, hx, rfl⟩ := List.mem_map.1 hm
  obtain ⟨r, hr, hrv, rfl⟩ := (mem_csrJobs dir (fun _ => []) (named v) x).1 hx
  exact hq r hr hrv rfl

/-- one file, by its url -/
def httpAt (u : Str) (p : Path) : Prog := fun s =>
  match fromHttp w.H (w.clock s.1) s.2 p (w.web s.1 u) with
  | (d, .ok _) => ((s.1 + 1, d), none)
  | (d, .error e) => ((s.1 + 1, d), some e)

theorem andThen_skip (P : Prog) : andThen P skip = P := by
  funext s
  unfold andThen
  rcases P s with ⟨t, _ | e⟩ <;> rfl

theorem each_append {A : Type} (f : A → Prog) (a b : List A) (t : State) : each f (a ++ b) t = andThen (each f a) (each f b) t := by
  induction a generalizing t with
  | nil => rfl
  | cons x r ih =>
    simp only [List.cons_append, each, andThen]
    rcases f x t with ⟨u, e⟩
    cases e with
    | none => exact ih u
    | some e => rfl

theorem each_map {A B : Type} (f : B → Prog) (g : A → B) (l : List A) : each f (l.map g) = each (fun a => f (g a)) l := by
  induction l with
  | nil => rfl
  | cons x r ih => simp only [List.map_cons, each, ih]

theorem each_congr {A : Type} (f g : A → Prog) (l : List A) (h : ∀ a ∈ l, f a = g a) : each f l = each g l := by
  induction l with
  | nil => rfl
  | cons x r ih => simp only [each, h x (by simp), ih fun a ha => h a (by simp [ha])]

theorem slr_each (dir : Str) : each (fun f => httpFile w f (path [dir, f.getLastD []])) slrFiles =
    each (fun r => httpAt w r.2.1.toList (below dir r.2.2)) (csrTable.filter fun r => r.1 = "SLR") := by
  have h1 : each (fun f => httpFile w f (path [dir, f.getLastD []])) slrFiles =
      each (fun x : Str × Str => httpAt w x.1 (path [dir, x.2])) (slrFiles.map fun f => (path f, f.getLastD [])) := by
    rw [each_map]; rfl
  rw [h1, slr_table, each_map]
  rfl

theorem geo_each (dir : Str) : each (fun f => httpFile w f (path [dir, "geocenter".toList, f.getLastD []])) geoFiles =
    each (fun r => httpAt w r.2.1.toList (below dir r.2.2)) (csrTable.filter fun r => r.1 = "geocenter") := by
  have h1 : each (fun f => httpFile w f (path [dir, "geocenter".toList, f.getLastD []])) geoFiles =
      each (fun x : Str × Str => httpAt w x.1 (path [dir, x.2])) (geoFiles.map fun f => (path f, "geocenter".toList ++ '/' :: f.getLastD [])) := by
    rw [each_map]
    apply each_congr
    intro f hf
    rw [path_two dir _ _ (by decide) (geo_plain f hf) (by decide) (by decide)]
    rfl
  rw [h1, geo_table, each_map]
  rfl

theorem rows_split (vs : List String) : rows vs = (if vs.contains "SLR" then csrTable.filter fun r => r.1 = "SLR" else []) ++
    (if vs.contains "geocenter" then csrTable.filter fun r => r.1 = "geocenter" else []) := by
  by_cases h1 : "SLR" ∈ vs <;> by_cases h2 : "geocenter" ∈ vs <;> simp [rows, csrTable, h1, h2]

/-- without the laser interferometer the run is one loop over the chosen rows of the table -/
theorem csr_loop (dir version : Str) (vs : List String) (hl : "LRI" ∉ vs) (s : State) :
    csrParts w dir version vs s = each (fun r => httpAt w r.2.1.toList (below dir r.2.2)) (rows vs) s := by
  have hn : vs.contains "LRI" = false := by simpa using hl
  rw [rows_split, each_append]
  unfold csrParts
  rw [slr_each, geo_each, hn]
  have h0 : when_ false (lri w dir version) = skip := rfl
  rw [h0, andThen_skip]
  cases vs.contains "SLR" <;> cases vs.contains "geocenter" <;> rfl

/-- **C109** the first file that cannot be downloaded ends the run: the files before it are those of the server, the others are
untouched -/
theorem csr_fails {C : Bytes → Prop} (hH : Distinguishes w.H C) (dir version : Str) (v : Variable) (hv : v ≠ .none) (hl : "LRI" ∉ named v)
    (page : Str → Bytes) (hC : ∀ u, C (page u)) (R1 R2 : List (String × String × String)) (r : String × String × String)
    (hR : (csrTable.filter fun r => r.1 ∈ named v) = R1 ++ r :: R2)
    (h1 : ∀ g ∈ R1, ∀ k, w.web k g.2.1.toList = .gives (page g.2.1.toList)) (h2 : ∀ k, w.web k r.2.1.toList = .fails) (s : State)
    (hd : Within C s.2) :
    (fromCsr w dir version v s).2 = some .download ∧
    (∀ g ∈ R1, contents (fromCsr w dir version v s).1.2 (below dir g.2.2) = some (page g.2.1.toList)) ∧
    (∀ q, (∀ g ∈ R1, q ≠ below dir g.2.2) → (fromCsr w dir version v s).1.2 q = s.2 q) := by
  set job : String × String × String → Prog := fun r => httpAt w r.2.1.toList (below dir r.2.2) with hjob
  have hA : Acts C (each job R1) (R1.flatMap fun g => [(below dir g.2.2, page g.2.1.toList)]) := by
    refine acts_each _ _ _ fun g hg => ?_
    exact acts_http w hH [g.2.1.toList] _ _ (hC _) (h1 g hg)
  obtain ⟨a1, a2, a3, a4, -⟩ := hA s hd
  have hfail : ∀ t : State, job r t = ((t.1 + 1, t.2), some .download) := by
    intro t
    simp only [hjob, httpAt, h2, fromHttp]
  have hrun : fromCsr w dir version v s = (((each job R1 s).1.1 + 1, (each job R1 s).1.2), some .download) := by
    rw [fromCsr_named w dir version v hv, csr_loop w dir version _ hl]
    have hrows : rows (named v) = R1 ++ r :: R2 := hR
    rw [hrows, each_append]
    rcases h : each job R1 s with ⟨t, e⟩
    rw [h] at a1
    simp only at a1
    subst a1
    simp only [andThen, each]
    simp only [hjob] at h hfail
    rw [h]
    simp only [hfail]
  have hmem : ∀ g ∈ R1, g ∈ csrTable := by
    intro g hg
    have : g ∈ R1 ++ r :: R2 := by simp [hg]
    rw [← hR] at this
    exact (List.mem_filter.1 this).1
  rw [hrun]
  refine ⟨rfl, ?_, ?_⟩
  · intro g hg
    apply a4
    refine lastOf_some _ (below dir g.2.2, page g.2.1.toList) (List.mem_flatMap.2 ⟨g, hg, by simp⟩) ?_
    intro y hy hyp
    obtain ⟨g', hg', hy'⟩ := List.mem_flatMap.1 hy
    rw [List.mem_singleton] at hy'
    subst hy'
    rw [below_inj dir g' g (hmem g' hg') (hmem g hg) hyp]
  · intro q hq
    apply a3
    apply lastOf_none
    rintro x hx rfl
    obtain ⟨g, hg, hy⟩ := List.mem_flatMap.1 hx
    rw [List.mem_singleton] at hy
    subst hy
    exact hq g hg rfl

/-! ## An example -/

/-- a world whose server gives its urls back as contents, except for one -/
def demo (bad : Str → Bool) : World where
  H := fun b => 'h' :: b.map fun x => Char.ofNat x.toNat
  clock := fun k => k
  web := fun _ u => if bad u then .fails else .gives (u.map fun c => UInt8.ofNat c.toNat)
  dir := fun _ _ => none
  ftp := fun _ _ => .refused
  other := fun _ => none

theorem demo_apart (bad : Str → Bool) : Distinguishes (demo bad).H fun _ => True := by
  refine ⟨fun b h => by simp [demo] at h, fun b b' _ _ h => ?_⟩
  simp only [demo, List.cons.injEq, true_and] at h
  refine List.map_injective_iff.2 ?_ h
  intro x y hxy
  have hv : ∀ z : UInt8, (Char.ofNat z.toNat).toNat = z.toNat := by
    intro z
    have h : ∀ i : Fin 256, (Char.ofNat i).toNat = i := by decide +kernel
    exact h ⟨z.toNat, z.toNat_lt⟩
  have := congrArg Char.toNat hxy
  rw [hv, hv] at this
  exact UInt8.toNat_inj.1 this

example : Serves (demo fun _ => false) (fun u => u.map fun c => UInt8.ofNat c.toNat) ["SLR"] := by
  intro r _ _ k; rfl

example : ∃ R1 R2 r, (csrTable.filter fun r => r.1 ∈ named (.list ["geocenter", "SLR"])) = R1 ++ r :: R2 ∧ R1.length = 3 ∧
    (∀ g ∈ R1, ∀ k, (demo fun u => u = r.2.1.toList).web k g.2.1.toList = .gives (g.2.1.toList.map fun c => UInt8.ofNat c.toNat)) ∧
    ∀ k, (demo fun u => u = r.2.1.toList).web k r.2.1.toList = .fails := by
  refine ⟨csrTable.take 3, csrTable.drop 4, ("SLR", "http://download.csr.utexas.edu/pub/slr/degree_2/C22_S22_RL06.txt", "C22_S22_RL06.txt"),
    by decide +kernel, by decide, ?_, ?_⟩
  · intro g hg k
    have : g.2.1.toList ≠ "http://download.csr.utexas.edu/pub/slr/degree_2/C22_S22_RL06.txt".toList := by
      revert g; decide +kernel
    exact if_neg (by rw [decide_eq_true_eq]; exact this)
  · intro k
    simp only [demo, decide_true, if_true]

/-- **C109** a listing of a server that refuses the login fails as the server says, not for want of a connection -/
theorem ftpList_login (other : Str → Option ℚ) (srv : FtpServer) (h : Str) (host : List Str) (base : Bool) (pat : Option (Str → Bool))
    (sort : Bool) :
    (srv.reach = false → ftpList other srv (h :: host) base pat sort = .error .connect) ∧
    (srv.reach = true → srv.login = false → ftpList other srv (h :: host) base pat sort = .error .ftp) := by
  constructor
  · intro h1; simp [ftpList, h1]
  · intro h1 h2; simp [ftpList, h1, h2]

/-- **C109** when the process ends while it writes, the file has only the part that was written: the next run sees another hash -/
theorem http_killed (H : Bytes → Str) (now : ℚ) (d : Disk) (p : Path) (b : Bytes) (n : ℕ) (h : hashOf H d p ≠ H b) :
    contents (fromHttp H now d p (.killed b n)).1 p = some (b.take n) ∧ (fromHttp H now d p (.killed b n)).2 = .error .killed := by
  simp [fromHttp, h, contents]

end Verif.Fetch
