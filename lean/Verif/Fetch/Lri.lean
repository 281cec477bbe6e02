import Verif.Fetch.More

/-!
# Downloads of auxiliary files: solutions of the laser ranging interferometer (C109)
-/
namespace Verif.Fetch
open Verif.Utilities

variable (w : World)

/-! ## Paths -/

theorem path_merge (dir a b : Str) (rest : List Str) (ha : a.head? ≠ some '/') (hb : b.head? ≠ some '/') (ha0 : a ≠ []) (ha1 : a.getLast? ≠ some '/') :
    path (dir :: a :: b :: rest) = path (dir :: (a ++ '/' :: b) :: rest) := by
  have h := path_two dir a b ha hb ha0 ha1
  unfold path join at h ⊢
  simp only [List.foldl_cons, List.foldl_nil, Option.getD_some] at h ⊢
  rw [h]

/-- a name of a version: not empty, no `/` at its ends -/
def PlainName (v : Str) : Prop := v ≠ [] ∧ v.head? ≠ some '/' ∧ v.getLast? ≠ some '/'

/-- where a file of the interferometer goes, below the download directory -/
def lriRel (version prod f : Str) : Str := "CSR".toList ++ '/' :: version ++ '/' :: prod ++ '/' :: f

theorem lri_path (dir version prod f : Str) (hv : PlainName version) (hp : PlainName prod) (hf : f.head? ≠ some '/') :
    path [dir, "CSR".toList, version, prod, f] = path [dir, lriRel version prod f] := by
  have last : ∀ x y : Str, y ≠ [] → y.getLast? ≠ some '/' → (x ++ '/' :: y).getLast? ≠ some '/' := by
    intro x y h0 h1
    rw [List.getLast?_append, List.getLast?_cons]
    cases hl : y.getLast? with
    | none => exact absurd (List.getLast?_eq_none_iff.1 hl) h0
    | some c => rw [hl] at h1; simpa using h1
  rw [path_merge dir _ version _ (by decide) hv.2.1 (by decide) (by decide),
    path_merge dir _ prod _ (by simp) hp.2.1 (by simp) (last _ _ hv.1 hv.2.2),
    path_merge dir _ f _ (by simp) hf (by simp) (last _ _ hp.1 hp.2.2)]
  rfl

/-! ## Listings -/

theorem httpList_right (pat : Str → Bool) (url : List Str) (s : State) (names : List Str) (times : List (Option ℚ)) (hl : names.length = times.length)
    (hw : ∀ k, w.dir k (path url) = some (names, times)) : httpList w pat url s = ((s.1 + 1, s.2), .ok (names.filter pat)) := by
  have hz : ((names.zip times).filter fun q => pat q.1).map Prod.fst = names.filter pat := by
    have : names.filter pat = ((names.zip times).map Prod.fst).filter pat := by
      rw [List.map_fst_zip (by omega)]
    rw [this, List.filter_map]
    rfl
  obtain ⟨h1, h2⟩ := listing_filter_pair pat names times hl
  unfold httpList
  rw [hw s.1]
  simp only [reduceBy, pick2, h1, h2]
  rw [hz]

/-! ## The server -/

/-- the products -/
def products : List Str := ["GAC".toList, "GAD".toList, "GSM".toList]

/-- address of the directory of a version, of a year in it, of a file -/
def lriUrl (version : Str) (rest : List Str) : Str :=
  path (["http://download.csr.utexas.edu".toList, "outgoing".toList, "gracefo".toList, version] ++ rest)

/-- a server whose directories do not change: the names on the page of the version and on the pages of its years, and the files -/
structure LriServes (version : Str) (years : List Str) (files : Str → List Str) (page : Str → Str → Bytes) : Prop where
  root : ∀ k, ∃ ts, years.length = ts.length ∧ w.dir k (lriUrl version []) = some (years, ts)
  dirs : ∀ y ∈ years, ∀ k, ∃ ts, (files y).length = ts.length ∧ w.dir k (lriUrl version [y]) = some (files y, ts)
  gives : ∀ y ∈ years, ∀ f ∈ files y, ∀ k, w.web k (lriUrl version [y, f]) = .gives (page y f)
  plain : ∀ y ∈ years, ∀ f ∈ files y, f.head? ≠ some '/'

/-- what is written for the interferometer -/
def lriJobs (dir version : Str) (years : List Str) (files : Str → List Str) (page : Str → Str → Bytes) : List (Path × Bytes) :=
  products.flatMap fun prod => (years.filter hasYear).flatMap fun y => ((files y).filter (hasText prod)).flatMap fun f =>
    [(path [dir, "CSR".toList, version, prod, f], page y f)]

theorem httpList_any (pat : Str → Bool) (url : List Str) (names : List Str)
    (hw : ∀ k, ∃ ts, names.length = ts.length ∧ w.dir k (path url) = some (names, ts)) (s : State) :
    httpList w pat url s = ((s.1 + 1, s.2), .ok (names.filter pat)) := by
  obtain ⟨ts, hl, hk⟩ := hw s.1
  have h := httpList_right { w with dir := fun _ _ => some (names, ts) } pat url s names ts hl (fun _ => rfl)
  unfold httpList at h ⊢
  rw [hk]
  exact h

theorem acts_lri {C : Bytes → Prop} (hH : Distinguishes w.H C) (dir version : Str) (years : List Str) (files : Str → List Str)
    (page : Str → Str → Bytes) (hC : ∀ y f, C (page y f)) (hs : LriServes w version years files page) :
    Acts C (lri w dir version) (lriJobs dir version years files page) := by
  refine acts_step (Q := each (fun prod => each (lriYear w dir version prod) (years.filter hasYear)) (["GAC", "GAD", "GSM"].map String.toList)) ?_ ?_
  · refine acts_each _ _ _ fun prod _ => acts_each _ _ _ fun y hy => ?_
    have hym := (List.mem_filter.1 hy).1
    refine acts_step (Q := each (fun f => httpFile w (lriHost version ++ [y, f]) (path [dir, "CSR".toList, version, prod, f]))
      ((files y).filter (hasText prod))) ?_ ?_
    · refine acts_each _ _ _ fun f hf => ?_
      exact acts_http w hH _ _ _ (hC y f) (hs.gives y hym f (List.mem_filter.1 hf).1)
    · intro s
      unfold lriYear
      rw [httpList_any w (hasText prod) (lriHost version ++ [y]) (files y) (hs.dirs y hym) s]
  · intro s
    unfold lri
    rw [httpList_any w hasYear (lriHost version) years (fun k => by
      have := hs.root k
      unfold lriUrl at this
      rw [List.append_nil] at this
      exact this) s]

theorem prod_plain : ∀ p ∈ products, PlainName p ∧ p.length = 3 := by unfold PlainName; decide +kernel

theorem lriRel_inj (version p p' f f' : Str) (hp : p.length = p'.length) (h : lriRel version p f = lriRel version p' f') : p = p' ∧ f = f' := by
  unfold lriRel at h
  simp only [List.append_assoc, List.cons_append] at h
  have h1 := List.append_cancel_left h
  simp only [List.cons.injEq, true_and] at h1
  have h2 := List.append_cancel_left h1
  simp only [List.cons.injEq, true_and] at h2
  have h3 := List.append_inj h2 hp
  exact ⟨h3.1, by simpa using h3.2⟩

theorem lriRel_plain (version p f : Str) : (lriRel version p f).head? ≠ some '/' := by
  have : lriRel version p f = 'C' :: ("SR".toList ++ '/' :: version ++ '/' :: p ++ '/' :: f) := rfl
  rw [this]; simp

theorem lri_place_inj (dir version p p' f f' : Str) (hv : PlainName version) (hp : p ∈ products) (hp' : p' ∈ products)
    (hf : f.head? ≠ some '/') (hf' : f'.head? ≠ some '/')
    (h : path [dir, "CSR".toList, version, p, f] = path [dir, "CSR".toList, version, p', f']) : p = p' ∧ f = f' := by
  rw [lri_path dir version p f hv (prod_plain p hp).1 hf, lri_path dir version p' f' hv (prod_plain p' hp').1 hf'] at h
  exact lriRel_inj version p p' f f' ((prod_plain p hp).2.trans (prod_plain p' hp').2.symm)
    (path_inj dir _ _ (lriRel_plain _ _ _) (lriRel_plain _ _ _) h)

theorem lri_place_row (dir version p f : Str) (hv : PlainName version) (hp : p ∈ products) (hf : f.head? ≠ some '/')
    (r : String × String × String) (hr : r ∈ csrTable) : path [dir, "CSR".toList, version, p, f] ≠ below dir r.2.2 := by
  intro h
  rw [lri_path dir version p f hv (prod_plain p hp).1 hf] at h
  have h1 := path_inj dir _ _ (lriRel_plain _ _ _) (rel_plain r hr) h
  have h2 : (lriRel version p f).take 4 = "CSR/".toList := rfl
  rw [h1] at h2
  exact (show ∀ r ∈ csrTable, r.2.2.toList.take 4 ≠ "CSR/".toList by decide +kernel) r hr h2

theorem lastOf_flatMap {A : Type} (g : A → List (Path × Bytes)) (l1 l2 : List A) (a : A) (q : Path) (b : Bytes)
    (h1 : lastOf (g a) q = some b) (h2 : ∀ x ∈ l2, lastOf (g x) q = none) : lastOf ((l1 ++ a :: l2).flatMap g) q = some b := by
  rw [List.flatMap_append, List.flatMap_cons, lastOf_append, lastOf_append, h1]
  have : lastOf (l2.flatMap g) q = none := by
    induction l2 with
    | nil => rfl
    | cons x r ih =>
      rw [List.flatMap_cons, lastOf_append, ih fun y hy => h2 y (by simp [hy]), h2 x (by simp)]; rfl
  rw [this]; rfl

theorem mem_lriJobs (dir version : Str) (years : List Str) (files : Str → List Str) (page : Str → Str → Bytes) (x : Path × Bytes) :
    x ∈ lriJobs dir version years files page ↔ ∃ p ∈ products, ∃ y ∈ years, hasYear y = true ∧ ∃ f ∈ files y, hasText p f = true ∧
      x = (path [dir, "CSR".toList, version, p, f], page y f) := by
  unfold lriJobs
  simp only [List.mem_flatMap, List.mem_filter, List.mem_singleton]
  constructor
  · rintro ⟨p, hp, y, ⟨hy, hy'⟩, f, ⟨hf, hf'⟩, rfl⟩; exact ⟨p, hp, y, hy, hy', f, hf, hf', rfl⟩
  · rintro ⟨p, hp, y, hy, hy', f, hf, hf', rfl⟩; exact ⟨p, hp, y, ⟨hy, hy'⟩, f, ⟨hf, hf'⟩, rfl⟩

/-- the last directory with a file decides -/
theorem lri_last (dir version : Str) (hv : PlainName version) (years : List Str) (files : Str → List Str)
    (page : Str → Str → Bytes) (hpl : ∀ y ∈ years, ∀ f ∈ files y, f.head? ≠ some '/') (p : Str) (hp : p ∈ products) (Y1 Y2 : List Str) (y f : Str)
    (hY : years.filter hasYear = Y1 ++ y :: Y2) (hf : f ∈ files y) (hft : hasText p f = true) (hl : ∀ y' ∈ Y2, f ∉ files y') :
    lastOf (lriJobs dir version years files page) (path [dir, "CSR".toList, version, p, f]) = some (page y f) := by
  have hmem : ∀ y' ∈ Y1 ++ y :: Y2, y' ∈ years := by
    intro y' h; rw [← hY] at h; exact (List.mem_filter.1 h).1
  have hfp := hpl y (hmem y (by simp)) f hf
  have hnd : products.Nodup := by decide +kernel
  obtain ⟨P1, P2, hP⟩ := List.append_of_mem hp
  unfold lriJobs
  rw [hP]
  refine lastOf_flatMap _ P1 P2 p _ _ ?_ ?_
  · rw [hY]
    refine lastOf_flatMap _ Y1 Y2 y _ _ ?_ ?_
    · refine lastOf_some _ (path [dir, "CSR".toList, version, p, f], page y f)
        (List.mem_flatMap.2 ⟨f, List.mem_filter.2 ⟨hf, hft⟩, List.mem_singleton.2 rfl⟩) ?_
      intro z hz he
      obtain ⟨f', hf', hz'⟩ := List.mem_flatMap.1 hz
      rw [List.mem_singleton] at hz'
      subst hz'
      have := lri_place_inj dir version p p f' f hv hp hp (hpl y (hmem y (by simp)) f' (List.mem_filter.1 hf').1) hfp he
      rw [this.2]
    · intro y' hy'
      apply lastOf_none
      intro z hz he
      obtain ⟨f', hf', hz'⟩ := List.mem_flatMap.1 hz
      rw [List.mem_singleton] at hz'
      subst hz'
      have := lri_place_inj dir version p p f' f hv hp hp (hpl y' (hmem y' (by simp [hy'])) f' (List.mem_filter.1 hf').1) hfp he
      rw [this.2] at hf'
      exact hl y' hy' (List.mem_filter.1 hf').1
  · intro p' hp'
    apply lastOf_none
    intro z hz he
    obtain ⟨y', hy', hz'⟩ := List.mem_flatMap.1 hz
    obtain ⟨f', hf', hz''⟩ := List.mem_flatMap.1 hz'
    rw [List.mem_singleton] at hz''
    subst hz''
    have hpm : p' ∈ products := by rw [hP]; simp [hp']
    have := lri_place_inj dir version p' p f' f hv hpm hp (hpl y' (List.mem_filter.1 hy').1 f' (List.mem_filter.1 hf').1) hfp he
    rw [hP, List.nodup_append] at hnd
    have h2 := hnd.2.1
    rw [List.nodup_cons] at h2
    rw [this.1] at hp'
    exact h2.1 hp'

/-- **C109** with the interferometer among the groups: each file of a year (a listed name with four digits in a row) whose name contains
the product goes to the directory of version and product; a name that occurs in more than one year is the one of the last of them; the
files of the other groups asked for are those of the server, and nothing else changes -/
theorem csr_lri {C : Bytes → Prop} (hH : Distinguishes w.H C) (dir version : Str) (hver : PlainName version) (v : Variable) (hv : "LRI" ∈ named v)
    (page : Str → Bytes) (hC : ∀ u, C (page u)) (hs : Serves w page (named v)) (years : List Str) (files : Str → List Str)
    (lpage : Str → Str → Bytes) (hL : ∀ y f, C (lpage y f)) (hl : LriServes w version years files lpage) (s : State) (hd : Within C s.2) :
    (fromCsr w dir version v s).2 = none ∧
    (∀ p ∈ products, ∀ Y1 y Y2, years.filter hasYear = Y1 ++ y :: Y2 → ∀ f ∈ files y, hasText p f = true → (∀ y' ∈ Y2, f ∉ files y') →
      contents (fromCsr w dir version v s).1.2 (path [dir, "CSR".toList, version, p, f]) = some (lpage y f)) ∧
    (∀ r ∈ csrTable, r.1 ∈ named v → contents (fromCsr w dir version v s).1.2 (below dir r.2.2) = some (page r.2.1.toList)) ∧
    (∀ q, (∀ r ∈ csrTable, r.1 ∈ named v → q ≠ below dir r.2.2) →
      (∀ p ∈ products, ∀ y ∈ years, hasYear y = true → ∀ f ∈ files y, hasText p f = true → q ≠ path [dir, "CSR".toList, version, p, f]) →
      (fromCsr w dir version v s).1.2 q = s.2 q) := by
  have hv0 : v ≠ .none := by rintro rfl; simp [named] at hv
  have hc : (named v).contains "LRI" = true := by simpa using hv
  have hA := acts_csr w hH dir version (named v) page hC hs _ (fun _ => acts_lri w hH dir version years files lpage hL hl)
  rw [hc] at hA
  simp only [if_true] at hA
  rw [fromCsr_named w dir version v hv0]
  obtain ⟨h1, -, h3, h4, -⟩ := hA s hd
  refine ⟨h1, ?_, ?_, ?_⟩
  · intro p hp Y1 y Y2 hY f hf hft hlast
    apply h4
    rw [lastOf_append, lri_last dir version hver years files lpage hl.plain p hp Y1 Y2 y f hY hf hft hlast]
    rfl
  · intro r hr hrv
    apply h4
    have hno : lastOf (lriJobs dir version years files lpage) (below dir r.2.2) = none := by
      apply lastOf_none
      intro x hx he
      obtain ⟨p, hp, y, hy, -, f, hf, -, rfl⟩ := (mem_lriJobs dir version years files lpage x).1 hx
      exact lri_place_row dir version p f hver hp (hl.plain y hy f hf) r hr he
    rw [lastOf_append, hno, Option.none_or]
    refine lastOf_some _ (below dir r.2.2, page r.2.1.toList) ((mem_csrJobs dir page (named v) _).2 ⟨r, hr, hrv, rfl⟩) ?_
    rintro y hy hyp
    obtain ⟨r', hr', -, rfl⟩ := (mem_csrJobs dir page (named v) y).1 hy
    rw [below_inj dir r' r hr' hr hyp]
  · intro q hq1 hq2
    apply h3
    apply lastOf_none
    intro x hx he
    rcases List.mem_append.1 hx with hx | hx
    · obtain ⟨r, hr, hrv, rfl⟩ := (mem_csrJobs dir page (named v) x).1 hx
      exact hq1 r hr hrv he.symm
    · obtain ⟨p, hp, y, hy, hy', f, hf, hf', rfl⟩ := (mem_lriJobs dir version years files lpage x).1 hx
      exact hq2 p hp y hy hy' f hf hf' he.symm

/-- **C109** if the directories of the years agree about names that occur in more than one, a second run changes nothing -/
theorem csr_lri_again {C : Bytes → Prop} (hH : Distinguishes w.H C) (dir version : Str) (hver : PlainName version) (v : Variable) (hv : "LRI" ∈ named v)
    (page : Str → Bytes) (hC : ∀ u, C (page u)) (hs : Serves w page (named v)) (years : List Str) (files : Str → List Str)
    (lpage : Str → Str → Bytes) (hL : ∀ y f, C (lpage y f)) (hl : LriServes w version years files lpage)
    (hsame : ∀ y ∈ years, ∀ y' ∈ years, ∀ f, f ∈ files y → f ∈ files y' → lpage y f = lpage y' f) (s : State) (hd : Within C s.2) :
    (fromCsr w dir version v (fromCsr w dir version v s).1).1.2 = (fromCsr w dir version v s).1.2 := by
  have hv0 : v ≠ .none := by rintro rfl; simp [named] at hv
  have hc : (named v).contains "LRI" = true := by simpa using hv
  have hA := acts_csr w hH dir version (named v) page hC hs _ (fun _ => acts_lri w hH dir version years files lpage hL hl)
  rw [hc] at hA
  simp only [if_true] at hA
  have hm := csr_lri w hH dir version hver v hv page hC hs years files lpage hL hl s hd
  rw [fromCsr_named w dir version v hv0] at hm ⊢
  obtain ⟨-, h2, -, h4, -⟩ := hA s hd
  refine (hA _ h2).2.2.2.2 ?_
  intro x hx
  rcases List.mem_append.1 hx with hx | hx
  · obtain ⟨r, hr, hrv, rfl⟩ := (mem_csrJobs dir page (named v) x).1 hx
    exact hm.2.2.1 r hr hrv
  · apply h4
    rw [lastOf_append, lastOf_some _ x hx]
    · rfl
    · intro z hz he
      obtain ⟨p, hp, y, hy, -, f, hf, -, rfl⟩ := (mem_lriJobs dir version years files lpage x).1 hx
      obtain ⟨p', hp', y', hy', -, f', hf', -, rfl⟩ := (mem_lriJobs dir version years files lpage z).1 hz
      obtain ⟨-, rfl⟩ := lri_place_inj dir version p' p f' f hver hp' hp (hl.plain y' hy' f' hf') (hl.plain y hy f hf) he
      exact hsame y' hy' y hy f' hf' hf

/-- **C109** the names of the years and of the files: four digits in a row, and the product somewhere in the name -/
theorem has_meaning (n t : Str) : (hasYear n = true ↔ ∃ a b c, n = a ++ b ++ c ∧ b.length = 4 ∧ ∀ x ∈ b, x.isDigit = true) ∧
    (hasText t n = true ↔ t <:+: n) := by
  constructor
  · unfold hasYear
    rw [List.any_eq_true]
    constructor
    · rintro ⟨x, hx, h⟩
      rw [Bool.and_eq_true, decide_eq_true_eq, List.all_eq_true] at h
      obtain ⟨a, ha⟩ := (List.mem_tails _ _).1 hx
      exact ⟨a, x.take 4, x.drop 4, by rw [List.append_assoc, List.take_append_drop, ha], by simp [h.1], h.2⟩
    · rintro ⟨a, b, c, rfl, hb, hd⟩
      refine ⟨b ++ c, (List.mem_tails _ _).2 ⟨a, by simp⟩, ?_⟩
      rw [Bool.and_eq_true, decide_eq_true_eq, List.all_eq_true, List.take_left' hb]
      exact ⟨by simp [hb], hd⟩
  · unfold hasText
    rw [List.any_eq_true]
    constructor
    · rintro ⟨x, hx, h⟩
      rw [List.isPrefixOf_iff_prefix] at h
      exact h.isInfix.trans ((List.mem_tails _ _).1 hx).isInfix
    · rintro ⟨a, b, rfl⟩
      refine ⟨t ++ b, (List.mem_tails _ _).2 ⟨a, by simp⟩, ?_⟩
      rw [List.isPrefixOf_iff_prefix]
      exact List.prefix_append _ _

/-! ## An example -/

/-- a server with two years -/
def demoLri : World where
  H := (demo fun _ => false).H
  clock := fun k => k
  web := fun _ u => .gives (u.map fun c => UInt8.ofNat c.toNat)
  dir := fun _ u => if u = lriUrl "RL06.1LRI".toList [] then some (["2019".toList, "doc".toList, "2020".toList], [none, none, none])
    else if u = lriUrl "RL06.1LRI".toList ["doc".toList] then some ([], [])
    else some (["GSM-2_x".toList, "GAC-2_x".toList], [none, some 1])
  ftp := fun _ _ => .refused
  other := fun _ => none

example : ∃ files page, LriServes demoLri "RL06.1LRI".toList ["2019".toList, "doc".toList, "2020".toList] files page ∧
    "GSM-2_x".toList ∈ files "2020".toList ∧ hasText "GSM".toList "GSM-2_x".toList = true ∧ hasYear "2020".toList = true ∧
    hasYear "doc".toList = false ∧ PlainName "RL06.1LRI".toList := by
  refine ⟨fun y => if y = "doc".toList then [] else ["GSM-2_x".toList, "GAC-2_x".toList],
    fun y f => (lriUrl "RL06.1LRI".toList [y, f]).map fun c => UInt8.ofNat c.toNat, ⟨?_, ?_, ?_, ?_⟩, by decide +kernel, by decide +kernel,
    by decide +kernel, by decide +kernel, by unfold PlainName; decide +kernel⟩
  · intro k; exact ⟨[none, none, none], rfl, by simp only [demoLri, if_true]⟩
  · intro y hy k
    simp only [List.mem_cons, List.not_mem_nil, or_false] at hy
    rcases hy with rfl | rfl | rfl
    · exact ⟨[none, some 1], by decide +kernel, by simp only [demoLri]; decide +kernel⟩
    · exact ⟨[], by decide +kernel, by simp only [demoLri]; decide +kernel⟩
    · exact ⟨[none, some 1], by decide +kernel, by simp only [demoLri]; decide +kernel⟩
  · intro y _ f _ k; rfl
  · decide +kernel

theorem noon : unixTime (fun _ => none) ("213 20200101120000".toList.drop 4) = some 1577880000 := by decide +kernel

/-- an ftp server whose files were changed at noon of the first of January 2020 -/
def demoFtp (bad : Str) : World where
  H := (demo fun _ => false).H
  clock := fun k => k
  web := fun _ _ => .fails
  dir := fun _ _ => none
  ftp := fun _ u => if u = bad then .fails else .file (u.map fun c => UInt8.ofNat c.toNat) "213 20200101120000".toList
  other := fun _ => none

example : FtpServes (demoFtp []) (fun u => u.map fun c => UInt8.ofNat c.toNat) (fun _ => "213 20200101120000".toList) (fun _ => 1577880000)
    gfzTable := by
  intro r hr
  refine ⟨fun k => if_neg ?_, noon⟩
  revert r; decide +kernel

example : ∃ R1 r R2, gfzTable = R1 ++ r :: R2 ∧ R1.length = 1 ∧ (∀ k, (demoFtp r.1.toList).ftp k r.1.toList = .fails) ∧
    FtpServes (demoFtp r.1.toList) (fun u => u.map fun c => UInt8.ofNat c.toNat) (fun _ => "213 20200101120000".toList) (fun _ => 1577880000) R1 := by
  refine ⟨gfzTable.take 1, _, gfzTable.drop 2, rfl, rfl, fun k => ?_, ?_⟩
  · simp only [demoFtp, if_true]
  · intro r hr
    refine ⟨fun k => if_neg ?_, noon⟩
    revert r; decide +kernel

end Verif.Fetch
