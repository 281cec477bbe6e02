import Verif.LoveText.Lemmas

/-!
# Love number files, output formats and the class (C90)

`read_table` and `read_missing` say what is read from the text of a table; `load_tables` and `table_columns` which of the five tables is
read and in which order of columns; `formats_agree` that all output formats hold the same three arrays in the order
`hl`, `kl`, `ll`; `transform_shared` and `transform_twice` what shared arrays mean for changes of frame.
-/
namespace Verif.LoveText
open Verif.SLR Verif.LoveNumbers

/-- rows as lines of numbers -/
def stdRow (r : ℕ × Triple) : List LoveNumbers.Tok := [.num r.1, .num r.2.hl, .num r.2.kl, .num r.2.ll]

/-- the columns of `stdRow` -/
def stdColumns : List String := ["l", "hl", "kl", "ll"]

theorem parse_std (rows : List (ℕ × Triple)) : (rows.map stdRow).mapM (parseRow stdColumns) = some rows := by
  have h : ∀ r : ℕ × Triple, parseRow stdColumns (stdRow r) = some r := by
    intro r
    exact parseRow_columns stdColumns (stdRow r) r.1 r.2.hl r.2.kl r.2.ll (by decide) (by decide) (by decide) (by decide)
      rfl rfl rfl rfl
  induction rows with
  | nil => rfl
  | cons r rs ih => rw [List.map_cons, List.mapM_cons, h r, ih]; rfl

section
variable {columns : List String} {header : ℕ} {text : List Char} {rows : List (ℕ × Triple)}

/-- reading the text of a table is reading its rows -/
theorem readText_core (hT : IsTable columns header text rows) (L : ℕ) (tL : Triple) (hlast : rows.getLast? = some (L, tL))
    (LMAX : Option ℕ) (reference : String) :
    readText LMAX header columns reference text =
      (readLove (LMAX.getD L) 0 stdColumns reference (rows.map stdRow)).map fun a => (LMAX.getD L, a) := by
  obtain ⟨lines, hx, hf⟩ := hT.text
  have hs := splitlines_text text lines hx
  -- the last line
  obtain ⟨line, hline, hsays⟩ : ∃ line, lines.getLast? = some line ∧ Says columns line L tL := by
    have hlen := hf.length_eq
    have hne : rows ≠ [] := by rintro rfl; simp at hlast
    have hne' : lines.drop header ≠ [] := by
      intro h; rw [h] at hlen; exact hne (List.length_eq_zero_iff.1 hlen.symm)
    have h1 : (lines.drop header).getLast hne' = lines.getLast (by intro h; simp [h] at hne') := by
      rw [List.getLast_drop]
    refine ⟨lines.getLast (by intro h; simp [h] at hne'), List.getLast?_eq_getLast_of_ne_nil _, ?_⟩
    have hk : rows.length - 1 < rows.length := by have := List.length_pos_iff.2 hne; omega
    have h2 := (List.forall₂_iff_get.1 hf).2 (rows.length - 1) (by omega) hk
    have h3 : rows.get ⟨rows.length - 1, hk⟩ = (L, tL) := by
      rw [List.getLast?_eq_getLast_of_ne_nil hne, Option.some.injEq, List.getLast_eq_getElem] at hlast
      exact hlast
    rw [h3] at h2
    rw [← h1, List.getLast_eq_getElem]
    simpa [hlen] using h2
  obtain ⟨x, hx1, hx2⟩ := column_last columns line L tL hsays hT.first
  have hl : lmaxOf LMAX columns (splitlines text) = some (LMAX.getD L) := by
    unfold lmaxOf
    rw [hs]
    simp only [hline, hx1]
    cases LMAX with
    | none => simpa using hx2
    | some n => rfl
  unfold readText
  rw [hl, hs]
  simp only [readLines_says _ columns _ rows hf, hlast, Option.map_some, Option.some_or]
  congr 1
  unfold finish readLove
  simp only [List.drop_zero, parse_std, hlast]
  split
  · rfl
  · split
    · rfl
    · cases alpha reference (Love.map (extrapolate L (LMAX.getD L))
          (Love.map (interpolate (LMAX.getD L) (rows.foldl (readStep (LMAX.getD L)) init).flag)
            (rows.foldl (readStep (LMAX.getD L)) init).love) |>.hl 1)
        (Love.map (extrapolate L (LMAX.getD L))
          (Love.map (interpolate (LMAX.getD L) (rows.foldl (readStep (LMAX.getD L)) init).flag)
            (rows.foldl (readStep (LMAX.getD L)) init).love) |>.ll 1) <;> rfl

/-- a known frame has a parameter -/
theorem alpha_known (reference : String) (hr : reference.toUpper ∈ ["CF", "CL", "CH", "CM", "CE"]) (x y : ℚ) :
    ∃ α, alpha reference x y = some α := by
  simp only [List.mem_cons, List.not_mem_nil, or_false] at hr
  unfold alpha
  rcases hr with h | h | h | h | h <;> rw [h] <;> simp

/-- **C90** what is read from the text of a table up to degree `n` (`LMAX`, or the last degree of the table): numbers with
exponents in `E`, `e` or `D`, whatever the header lines and the order of the columns after the degree.  Below the last
degree `L` each value of the table is returned exactly, degree 1 with one number subtracted, the same for the three kinds
and 0 in the frame of the file -/
theorem read_table (hT : IsTable columns header text rows) (L : ℕ) (tL : Triple) (hlast : rows.getLast? = some (L, tL))
    (hL : 2 ≤ L) (LMAX : Option ℕ) (n : ℕ) (hn : n = LMAX.getD L) (hn1 : 1 ≤ n) (reference : String)
    (hr : reference.toUpper ∈ ["CF", "CL", "CH", "CM", "CE"]) (hk : ∃ d t, (d, t) ∈ rows ∧ d ≤ n) :
    ∃ a : Love, readText LMAX header columns reference text = some (n, a) ∧
      (∀ κ d t, (d, t) ∈ rows → d ≤ n → d ≠ 1 → d < L → a.get κ d = t.get κ) ∧
      (∀ t, (1, t) ∈ rows → ∃ α, alpha reference t.hl t.ll = some α ∧ (∀ κ, a.get κ 1 = t.get κ - α) ∧
        (reference.toUpper = "CE" → α = 0)) ∧
      (∀ κ d, L ≤ d → d ≤ n → 3 ≤ L → ∀ t1 t2, (L - 1, t1) ∈ rows → (L - 2, t2) ∈ rows →
        a.get κ d = t1.get κ + ((d : ℚ) - (L - 1)) * (t1.get κ - t2.get κ)) := by
  have hcore := readText_core hT L tL hlast LMAX reference
  rw [← hn] at hcore
  have heq := readLove_eq n 0 stdColumns reference (rows.map stdRow) rows (parse_std rows) hT.increasing L tL hlast hn1 hk
  obtain ⟨α, hα⟩ := alpha_known reference hr (extrapolate L n (base .h n rows) 1) (extrapolate L n (base .l n rows) 1)
  rw [hα] at heq
  simp only at heq
  rw [heq] at hcore
  refine ⟨_, hcore, ?_, ?_, ?_⟩
  · intro κ d t hg hd h1 hdL
    exact readLove_file n 0 stdColumns reference (rows.map stdRow) rows (parse_std rows) hT.increasing L tL hlast hn1 _ heq
      κ d t hg hd h1 hL hdL
  · intro t hg
    obtain ⟨β, hβ, hall⟩ := readLove_degree1 n 0 stdColumns reference (rows.map stdRow) rows (parse_std rows) hT.increasing
      L tL hlast hn1 _ heq t hg hL
    refine ⟨β, hβ, hall, fun hce => ?_⟩
    have := alpha_case reference "CE" (by rw [hce]; decide +kernel) t.hl t.ll
    rw [this, (alpha_names _ _).2.2.2.2] at hβ
    exact (Option.some.inj hβ).symm
  · intro κ d hd hdn hL3 t1 t2 g1 g2
    exact readLove_beyond n 0 stdColumns reference (rows.map stdRow) rows (parse_std rows) hT.increasing L tL hlast hn1 _ heq
      κ t1 t2 hL3 (by omega) g1 g2 d hd hdn

/-- **C90** degrees missing between two lines are on the straight line between them, degree 0 is a copy of the first
degree of the table -/
theorem read_missing (hT : IsTable columns header text rows) (L : ℕ) (tL : Triple) (hlast : rows.getLast? = some (L, tL))
    (hL : 2 ≤ L) (LMAX : Option ℕ) (n : ℕ) (reference : String) (hn1 : 1 ≤ n) (a : Love)
    (hres : readText LMAX header columns reference text = some (n, a)) :
    (∀ κ p x q tp tq, (p, tp) ∈ rows → (q, tq) ∈ rows → p < x → x < q → q ≤ n → (∀ c t, p < c → c < q → (c, t) ∉ rows) →
      x ≠ 1 → a.get κ x = tp.get κ + (tq.get κ - tp.get κ) / ((q : ℚ) - p) * ((x : ℚ) - p)) ∧
    (∀ κ q tq, (q, tq) ∈ rows → 0 < q → q ≤ n → (∀ c t, c < q → (c, t) ∉ rows) → a.get κ 0 = tq.get κ) := by
  rw [readText_core hT L tL hlast LMAX reference, Option.map_eq_some_iff] at hres
  obtain ⟨b, hb, hab⟩ := hres
  simp only [Prod.mk.injEq] at hab
  obtain ⟨rfl, rfl⟩ := hab
  refine ⟨fun κ p x q tp tq hp hq h1 h2 h3 hgap hx => ?_, fun κ q tq hq h0 h1 hgap => ?_⟩
  · exact readLove_between _ 0 stdColumns reference (rows.map stdRow) rows (parse_std rows) hT.increasing L tL hlast hn1 b hb
      κ p x q tp tq hp hq h1 h2 h3 (fun c h h' t => hgap c t h h') hx
  · exact readLove_degree0 _ 0 stdColumns reference (rows.map stdRow) rows (parse_std rows) hT.increasing L tL hlast hn1 b hb
      κ q tq hq h0 h1 (fun c h t => hgap c t h) hL

end

/-! ## the tables of the package -/

/-- **C90** the order of the columns: in the table of Han and Wahr the gravitational Love number is third, in the four others
it is fourth; columns after that are ignored -/
theorem table_columns (line : List Char) (e : Entry) (d : ℕ) (hd : IsDegree e d) (x y z : GIA.Tok) (es : List Entry)
    (hl : Line line (e :: .num x :: .num y :: .num z :: es)) (T : Table) :
    (table 0 = some T → Says T.columns line d ⟨x.val, y.val, z.val⟩) ∧
    (∀ i, 1 ≤ i → table i = some T → Says T.columns line d ⟨x.val, z.val, y.val⟩) := by
  constructor
  · intro h
    simp only [table, Option.some.injEq] at h
    subst h
    exact ⟨_, e, x, y, z, hl, by decide, by decide, by decide, by decide, rfl, hd, rfl, rfl, rfl, rfl⟩
  · intro i hi h
    have hc : T.columns = ["l", "hl", "ll", "kl"] ∨ T.columns = ["l", "hl", "ll", "kl", "nl", "nk"] := by
      match i, hi with
      | 1, _ => simp only [table, Option.some.injEq] at h; subst h; exact Or.inl rfl
      | 2, _ => simp only [table, Option.some.injEq] at h; subst h; exact Or.inr rfl
      | 3, _ => simp only [table, Option.some.injEq] at h; subst h; exact Or.inr rfl
      | 4, _ => simp only [table, Option.some.injEq] at h; subst h; exact Or.inr rfl
      | k + 5, _ => simp [table] at h
    rcases hc with hc | hc <;> rw [hc] <;>
      exact ⟨_, e, x, z, y, hl, by decide, by decide, by decide, by decide, rfl, hd, rfl, rfl, rfl, rfl⟩

/-- **C90** `load_love_numbers` knows the tables 0 to 4 and no others; they are different files -/
theorem tables_known (i : ℕ) : (∃ T, table i = some T) ↔ i ≤ 4 := by
  match i with
  | 0 => simp [table]
  | 1 => simp [table]
  | 2 => simp [table]
  | 3 => simp [table]
  | 4 => simp [table]
  | k + 5 => simp [table]

/-- **C90** different options read different files -/
theorem tables_distinct (i j : ℕ) (S T : Table) (hi : table i = some S) (hj : table j = some T) (h : S.file = T.file) :
    i = j := by
  have hi4 := (tables_known i).1 ⟨S, hi⟩
  have hj4 := (tables_known j).1 ⟨T, hj⟩
  have hmap : ((table i).map Table.file) = ((table j).map Table.file) := by rw [hi, hj]; simp [h]
  have key : ∀ i j : Fin 5, (table i.val).map Table.file = (table j.val).map Table.file → i = j := by decide
  have := key ⟨i, by omega⟩ ⟨j, by omega⟩ hmap
  simpa using this

/-- **C90** `load_love_numbers` in the four formats: the same three arrays of the degrees `0..LMAX`, and the class with the
description of the table -/
theorem load_tables (data : String → List Char) (LMAX i : ℕ) (reference : String) (T : Table) (hi : table i = some T)
    (n : ℕ) (a : Love) (hres : readText (some LMAX) T.header T.columns reference (data T.file) = some (n, a)) :
    load data LMAX i reference "dict" = some (.dict (dictOf n a)) ∧
    load data LMAX i reference "tuple" = some (.tuple (arr n a.hl) (arr n a.kl) (arr n a.ll)) ∧
    load data LMAX i reference "zip" = some (.zip ((List.range (n + 1)).map fun d : ℕ => (a.hl d, a.kl d, a.ll d))) ∧
    load data LMAX i reference "class" = some (.cls
      { hl := arr n a.hl, kl := arr n a.kl, ll := arr n a.ll, lmax := some n, l := some (List.range (n + 1)),
        reference := some reference, model := some T.model, citation := some T.citation, filename := some T.file }) ∧
    (∀ F, F ∉ ["dict", "tuple", "zip", "class"] → load data LMAX i reference F = some .none) := by
  have hz : ∀ l : List ℕ, zip3 (l.map a.hl) (l.map a.kl) (l.map a.ll) = l.map fun d : ℕ => (a.hl d, a.kl d, a.ll d) := by
    intro l; induction l with
    | nil => rfl
    | cons x xs ih => simp [zip3, ih]
  have hlen : ((arr n a.hl).length : ℤ) - 1 = n := by simp [arr]
  have hlen2 : ((n : ℤ) + 1).toNat = n + 1 := by omega
  refine ⟨?_, ?_, ?_, ?_, ?_⟩
  · simp [load, hi, readLoveNumbers, hres, formatter]
  · simp [load, hi, readLoveNumbers, hres, formatter, dictOf]
  · simp [load, hi, readLoveNumbers, hres, formatter, dictOf, arr, hz]
  · unfold load readLoveNumbers
    simp only [hi, hres]
    rw [if_pos trivial]
    have : formatter (dictOf n a) "class" = .cls ((Obj.new none).fromDict (dictOf n a)) := by
      simp [formatter]
    rw [this]
    simp only [setAttributes, Obj.fromDict, dictOf, Obj.new, hlen, hlen2]
  · intro F hF
    simp only [List.mem_cons, List.not_mem_nil, or_false, not_or] at hF
    unfold load readLoveNumbers
    simp only [hi, hres]
    rw [if_neg hF.2.2.2]
    unfold formatter
    rw [if_neg hF.1, if_neg hF.2.1, if_neg hF.2.2.1, if_neg hF.2.2.2]

/-- **C90** the number of degrees returned is `LMAX + 1` and the views of an object are the same arrays in the same order -/
theorem formats_agree (o : Obj) (d : Dict) :
    (o.fromDict d).toDict.hl = d.hl ∧ (o.fromDict d).toDict.kl = d.kl ∧ (o.fromDict d).toDict.ll = d.ll ∧
    (o.fromDict d).toTuple = (d.hl, d.kl, d.ll) ∧ (o.fromDict d).iter = [d.hl, d.kl, d.ll] ∧
    (o.fromDict d).lmax = some ((d.hl.length : ℤ) - 1) ∧ (o.fromDict d).len = some d.hl.length ∧
    ((o.fromDict d).reference, (o.fromDict d).model, (o.fromDict d).citation, (o.fromDict d).filename) =
      (o.reference, o.model, o.citation, o.filename) ∧
    (Obj.new none).fromDict (o.fromDict d).toDict =
      { (o.fromDict d) with reference := none, model := none, citation := none, filename := none } := by
  refine ⟨rfl, rfl, rfl, rfl, rfl, rfl, ?_, rfl, rfl⟩
  simp [Obj.len, Obj.fromDict]

/-- **C90** the truncation degree given is the one of the result -/
theorem readText_lmax (LMAX header : ℕ) (columns : List String) (reference : String) (text : List Char) (n : ℕ) (a : Love)
    (h : readText (some LMAX) header columns reference text = some (n, a)) : n = LMAX := by
  unfold readText at h
  split at h
  · simp at h
  · rename_i k hk
    have : k = LMAX := by
      unfold lmaxOf at hk
      split at hk
      · simp at hk
      · split at hk <;> simp_all
    subst this
    split at h
    · simp at h
    · rw [Option.map_eq_some_iff] at h
      obtain ⟨b, _, hb⟩ := h
      simp only [Prod.mk.injEq] at hb
      exact hb.1.symm

/-! ## shared arrays -/

theorem subAt1_get (α : ℚ) (a : List ℚ) (i : ℕ) :
    (subAt1 α a)[i]? = if i = 1 then (a[i]?).map (· - α) else a[i]? := by
  unfold subAt1
  rw [List.getElem?_modify]
  by_cases h : i = 1
  · subst h; simp
  · have h' : ¬ 1 = i := fun e => h e.symm
    simp [h, h']

/-- **C90** a change of frame through any of the objects, dictionaries and tuples that share the arrays is a change of all
of them: degree 1 of the three arrays is reduced by the same number; nothing else in memory changes -/
theorem transform_shared (m m' : Heap) (r : Refs) (hd : r.h ≠ r.k ∧ r.h ≠ r.l ∧ r.k ≠ r.l) (reference : String)
    (h : transformHeap m r reference = some m') :
    ∃ h1 k1 l1 α, (m r.h)[1]? = some h1 ∧ (m r.k)[1]? = some k1 ∧ (m r.l)[1]? = some l1 ∧
      alpha reference h1 l1 = some α ∧
      (m' (handOn r).h)[1]? = some (h1 - α) ∧ (m' (handOn r).k)[1]? = some (k1 - α) ∧ (m' (handOn r).l)[1]? = some (l1 - α) ∧
      (∀ x i, i ≠ 1 → (m' x)[i]? = (m x)[i]?) ∧ (∀ x, x ≠ r.h → x ≠ r.k → x ≠ r.l → m' x = m x) := by
  obtain ⟨d1, d2, d3⟩ := hd
  unfold transformHeap at h
  split at h
  · rename_i h1 k1 l1 e1 e2 e3
    rw [Option.map_eq_some_iff] at h
    obtain ⟨α, hα, rfl⟩ := h
    refine ⟨h1, k1, l1, α, e1, e2, e3, hα, ?_, ?_, ?_, ?_, ?_⟩
    · simp [handOn, Function.update, d1, d2, subAt1_get, e1]
    · simp [handOn, Function.update, d1.symm, d3, subAt1_get, e2]
    · simp [handOn, Function.update, d2.symm, d3.symm, subAt1_get, e3]
    · intro x i hi
      simp only [Function.update_apply]
      split
      · subst_vars
        rw [subAt1_get, if_neg hi, if_neg (Ne.symm d3), if_neg (Ne.symm d2)]
      · split
        · subst_vars
          rw [subAt1_get, if_neg hi, if_neg (Ne.symm d1)]
        · split
          · subst_vars; rw [subAt1_get, if_neg hi]
          · rfl
    · intro x hx hy hz
      simp [Function.update, hx, hy, hz]
  · simp at h

/-- **C90** so a second change of frame through another object starts from the changed numbers: going to `CF` (or `CL`, `CH`)
twice is harmless, going to `CM` twice (a defect) subtracts the Earth's translation twice -/
theorem transform_twice (m : Heap) (r : Refs) (hd : r.h ≠ r.k ∧ r.h ≠ r.l ∧ r.k ≠ r.l) (h1 k1 l1 : ℚ)
    (e1 : (m r.h)[1]? = some h1) (e2 : (m r.k)[1]? = some k1) (e3 : (m r.l)[1]? = some l1) :
    (∃ m1 m2, transformHeap m r "CM" = some m1 ∧ transformHeap m1 (handOn r) "CM" = some m2 ∧
      (m2 r.k)[1]? = some (k1 - 2)) ∧
    (∃ m1 m2, transformHeap m r "CF" = some m1 ∧ transformHeap m1 (handOn r) "CF" = some m2 ∧
      (m2 r.k)[1]? = (m1 r.k)[1]? ∧ (m1 r.k)[1]? = some (k1 - (h1 + 2 * l1) / 3)) := by
  have ex : ∀ (m : Heap) (h1 k1 l1 : ℚ) (ref : String) (α : ℚ), (m r.h)[1]? = some h1 → (m r.k)[1]? = some k1 →
      (m r.l)[1]? = some l1 → alpha ref h1 l1 = some α → ∃ m', transformHeap m r ref = some m' ∧
      (m' r.h)[1]? = some (h1 - α) ∧ (m' r.k)[1]? = some (k1 - α) ∧ (m' r.l)[1]? = some (l1 - α) := by
    intro m h1 k1 l1 ref α e1 e2 e3 hα
    have : ∃ m', transformHeap m r ref = some m' := by
      unfold transformHeap; rw [e1, e2, e3]; simp [hα]
    obtain ⟨m', hm⟩ := this
    obtain ⟨h', k', l', β, f1, f2, f3, f4, f5, f6, f7, _⟩ := transform_shared m m' r hd ref hm
    rw [e1, Option.some.injEq] at f1; rw [e2, Option.some.injEq] at f2; rw [e3, Option.some.injEq] at f3
    subst f1 f2 f3
    rw [hα, Option.some.injEq] at f4
    subst f4
    exact ⟨m', hm, f5, f6, f7⟩
  constructor
  · obtain ⟨m1, a1, a2, a3, a4⟩ := ex m h1 k1 l1 "CM" 1 e1 e2 e3 (alpha_names _ _).2.2.2.1
    obtain ⟨m2, b1, b2, b3, b4⟩ := ex m1 _ _ _ "CM" 1 a2 a3 a4 (alpha_names _ _).2.2.2.1
    refine ⟨m1, m2, a1, b1, ?_⟩
    rw [b3]; congr 1; ring
  · obtain ⟨m1, a1, a2, a3, a4⟩ := ex m h1 k1 l1 "CF" _ e1 e2 e3 (alpha_names _ _).1
    obtain ⟨m2, b1, b2, b3, b4⟩ := ex m1 _ _ _ "CF" _ a2 a3 a4 (alpha_names _ _).1
    refine ⟨m1, m2, a1, b1, ?_, a3⟩
    rw [b3, a3]; congr 1; ring

/-! ## exceptions -/

/-- **C90** (a defect) a file that ends with an empty line, or with a line without the column of the degree, cannot be read,
even if the maximum degree is given -/
theorem blank_end (LMAX : Option ℕ) (header : ℕ) (columns : List String) (reference : String) (text : List Char)
    (lines : List (List Char)) (last : List Char) (hx : splitlines text = lines ++ [last])
    (hb : ∀ c ∈ last, isSpace c = true) : readText LMAX header columns reference text = none := by
  have hf : ∀ n, findallN n last = [] := by
    clear hx
    intro n
    induction last generalizing n with
    | nil => cases n <;> rfl
    | cons c cs ih =>
      cases n with
      | zero => rfl
      | succ n =>
        rw [findallN, rxAt_space c cs (hb c (by simp))]
        exact ih (fun x hx => hb x (by simp [hx])) n
  have hl : lmaxOf LMAX columns (splitlines text) = none := by
    unfold lmaxOf
    rw [hx]
    simp only [List.getLast?_append, List.getLast?_singleton, Option.some_or]
    have : column columns (findall last) "l" = none := by
      unfold column findall; rw [hf]; split <;> simp
    rw [this]
  unfold readText; rw [hl]

/-- **C90** (a defect) with exponents in `D` before the degree, the last line is cut at the letter: here the file has degrees up to
12, but the maximum degree is taken to be 1 -/
example : lmaxOf none ["hl", "l", "kl", "ll"] [" 1.0D+01 12 0.5 0.5".toList] = some 1 := by decide +kernel

/-! ## example -/

/-- a table with Fortran exponents, a header and an infinite degree -/
def exText : List Char :=
  "degree h k l\n 1 -0.25 0. 1.5D-01\n 2 -1.0E0 -0.5 .25\n 3 -2.0e0 -1.5 0.5\n inf -6. 0. 2.\n".toList

/-- it is a table in the sense of the theorems -/
example : ∃ lines, IsText exText lines ∧ lines.length = 5 := by
  refine ⟨["degree h k l".toList, " 1 -0.25 0. 1.5D-01".toList, " 2 -1.0E0 -0.5 .25".toList, " 3 -2.0e0 -1.5 0.5".toList,
    " inf -6. 0. 2.".toList], ⟨by decide +kernel, Or.inl (by decide +kernel)⟩, rfl⟩

/-- a line of it -/
example : Says ["l", "hl", "kl", "ll"] " 1 -0.25 0. 1.5D-01".toList 1 ⟨-1/4, 0, 3/20⟩ := by
  refine ⟨[.num (.int .none 1 [] none), .num (.dec ⟨.minus, [0], [2, 5], none, by decide⟩),
    .num (.dec ⟨.none, [0], [], none, by decide⟩), .num (.dec ⟨.none, [1], [5], some (true, .minus, 0, [1]), by decide⟩)], _,
    _, _, _, ?_, by decide, by decide, by decide, by decide, rfl, Or.inl ⟨_, _, _, rfl, by decide +kernel⟩, rfl, rfl, rfl,
    by decide +kernel⟩
  refine Line.blank ' ' rfl (Line.num _ ['1'] (Or.inl (by decide +kernel)) (Or.inr ⟨' ', _, rfl, rfl⟩)
    (Line.blank ' ' rfl (Line.num _ ['-', '0', '.', '2', '5'] (Or.inl (by decide +kernel)) (Or.inr ⟨' ', _, rfl, rfl⟩)
      (Line.blank ' ' rfl (Line.num _ ['0', '.'] (Or.inl (by decide +kernel)) (Or.inr ⟨' ', _, rfl, rfl⟩)
        (Line.blank ' ' rfl ?_))))))
  have := Line.num (cs := []) (es := []) (.dec ⟨.none, [1], [5], some (true, .minus, 0, [1]), by decide⟩)
    ['1', '.', '5', 'D', '-', '0', '1'] (Or.inr (by decide +kernel)) (Or.inl rfl) .nil
  exact this

/-- a whole table that meets the hypotheses of `read_table` -/
example : IsTable ["l", "hl", "kl", "ll"] 1 "x\n1 0. 5 1\n2 0. 6 0".toList [(1, ⟨0, 5, 1⟩), (2, ⟨0, 6, 0⟩)] := by
  have line : ∀ a b c : Fin 10, Line ([dchar a, ' ', '0', '.', ' ', dchar b, ' ', dchar c])
      [.num (.int .none a [] none), .num (.dec ⟨.none, [0], [], none, by decide⟩), .num (.int .none b [] none),
        .num (.int .none c [] none)] := by
    intro a b c
    have one : ∀ x : Fin 10, Written (.int .none x [] none) [dchar x] := fun x => Or.inl rfl
    exact Line.num _ [dchar a] (one a) (Or.inr ⟨' ', _, rfl, rfl⟩) (Line.blank ' ' rfl (Line.num _ ['0', '.'] (Or.inl (by decide))
      (Or.inr ⟨' ', _, rfl, rfl⟩) (Line.blank ' ' rfl (Line.num _ [dchar b] (one b) (Or.inr ⟨' ', _, rfl, rfl⟩)
        (Line.blank ' ' rfl (Line.num _ [dchar c] (one c) (Or.inl rfl) .nil))))))
  refine ⟨⟨["x".toList, "1 0. 5 1".toList, "2 0. 6 0".toList], ⟨by decide +kernel, Or.inr ⟨["x".toList, "1 0. 5 1".toList], "2 0. 6 0".toList,
    rfl, by decide +kernel, by decide +kernel⟩⟩, ?_⟩, rfl, by decide⟩
  refine List.Forall₂.cons ?_ (List.Forall₂.cons ?_ List.Forall₂.nil)
  · refine ⟨_, _, _, _, _, line 1 5 1, by decide, by decide, by decide, by decide, rfl, Or.inl ⟨_, _, _, rfl, by decide +kernel⟩,
      rfl, rfl, rfl, by decide +kernel⟩
  · refine ⟨_, _, _, _, _, line 2 6 0, by decide, by decide, by decide, by decide, rfl, Or.inl ⟨_, _, _, rfl, by decide +kernel⟩,
      rfl, rfl, rfl, by decide +kernel⟩

/-- what is read from it up to degree 4 in the frame of the center of figure -/
example : (readText (some 4) 1 ["l", "hl", "kl", "ll"] "cf" exText).map (fun x => (arr x.1 x.2.hl, arr x.1 x.2.kl)) =
    some ([-1/4, -1/4 - 1/60, -1, -2, -2], [0, -1/60, -1/2, -3/2, -3/2]) := by decide +kernel

example : (load (fun f => if f = "love_numbers" then "x\n".toList ++ exText else []) 2 0 "CE" "tuple") =
    some (.tuple [-1/4, -1/4, -1] [0, 0, -1/2] [3/20, 3/20, 1/4]) := by decide +kernel

example : (transformHeap (fun i => if i = 0 then [0, 1] else if i = 1 then [0, 2] else [0, 4]) ⟨0, 1, 2⟩ "CF").map
    (fun m => (m 0, m 1, m 2)) = some ([0, -2], [0, -1], [0, 1]) := by decide +kernel

end Verif.LoveText
