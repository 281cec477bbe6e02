import Verif.Names.Props

/-!
# The dates and the version in the name of a file
-/
namespace Verif.Names

/-! ## Specification -/

/-- a text of `n` digits -/
def DigitsN (n : ℕ) (u : Name) : Prop := u.length = n ∧ ∀ c ∈ u, c.isDigit = true

/-- the beginning of a name: prefix, year and day of the start, year and day of the end -/
structure Head where
  pfx : Name
  sy : Name
  sd : Name
  ey : Name
  ed : Name

/-- digits of the dates -/
def Head.Ok (h : Head) : Prop := DigitsN 4 h.sy ∧ DigitsN 3 h.sd ∧ DigitsN 4 h.ey ∧ DigitsN 3 h.ed

/-- text of the beginning -/
def Head.text (h : Head) : Name :=
  h.pfx ++ "-2_".toList ++ h.sy ++ h.sd ++ ['-'] ++ h.ey ++ h.ed ++ ['_']

/-- the dates -/
def Head.span (h : Head) : Span := mkSpan h.sy h.sd h.ey h.ed

/-- the abbreviations of the centers -/
def Centers : List Name := ["UTCSR", "EIGEN", "GFZOP", "JPLEM", "JPLMSC", "GRGS", "COSTG"].map String.toList

/-- what follows the dates in a name: anything, the center between underscores, anything, an underscore and a digit,
anything -/
def TailOk (w : Name) : Prop :=
  ∃ aux center f1 d rest, center ∈ Centers ∧ d.isDigit = true ∧
    w = aux ++ ['_'] ++ center ++ ['_'] ++ f1 ++ ['_'] ++ [d] ++ rest

/-- the name has dates: `h` is its beginning, and the rest is in order -/
def HasDates (name : Name) (h : Head) : Prop := h.Ok ∧ ∃ w, name = h.text ++ w ∧ TailOk w

/-! ## Helper lemmas -/

theorem mem_runs_cat (e : Re) (es : List Re) (s r : Name) :
    (∃ c, (c, r) ∈ runs (cat (e :: es)) s) ↔ ∃ q, (∃ c, (c, q) ∈ runs e s) ∧ ∃ c, (c, r) ∈ runs (cat es) q := by
  have : cat (e :: es) = .seq e (cat es) := rfl
  rw [this]
  simp only [runs, List.mem_flatMap, List.mem_map]
  constructor
  · rintro ⟨c, x, hx, y, hy, h⟩
    simp only [Prod.mk.injEq] at h
    exact ⟨x.2, ⟨x.1, hx⟩, y.1, by rw [← h.2]; exact hy⟩
  · rintro ⟨q, ⟨c, hc⟩, d, hd⟩
    exact ⟨c ++ d, (c, q), hc, (d, r), hd, rfl⟩

theorem mem_runs_cat_eos (es : List Re) (he : ∀ e ∈ es, NoEnd e) (s r : Name) :
    (∃ c, (c, r) ∈ runs (cat (es ++ [.eos])) s) ↔ (r = [] ∨ r = ['\n']) ∧ ∃ u, s = u ++ r ∧ Lang (cat es) u := by
  induction es generalizing s with
  | nil =>
    rw [List.nil_append, mem_runs_cat]
    simp only [runs, cat, List.foldr, Lang, List.mem_singleton]
    constructor
    · rintro ⟨q, ⟨c, hc⟩, d, hd⟩
      simp only [Prod.mk.injEq] at hd
      split at hc
      · rename_i hq
        simp at hc
        rw [hd.2]
        exact ⟨by rw [hc.2]; exact hq, [], by simp [hc.2], rfl⟩
      · simp at hc
    · rintro ⟨hr, u, rfl, rfl⟩
      refine ⟨r, ⟨[], ?_⟩, [], rfl⟩
      simp [hr]
  | cons e es ih =>
    rw [List.cons_append, mem_runs_cat]
    simp only [ih fun x hx => he x (by simp [hx]), lang_cat_cons, runs_lang e (he e (by simp))]
    constructor
    · rintro ⟨q, ⟨u, rfl, hu⟩, hr, v, rfl, hv⟩
      exact ⟨hr, u ++ v, by simp, u, v, rfl, hu, hv⟩
    · rintro ⟨hr, u, rfl, v, w, rfl, hv, hw⟩
      exact ⟨w ++ r, ⟨v, by simp, hv⟩, hr, w, rfl, hw⟩

theorem runs_ne_nil (e : Re) (s : Name) : runs e s ≠ [] ↔ ∃ r c, (c, r) ∈ runs e s := by
  cases h : runs e s with
  | nil => simp
  | cons x l => simp only [ne_eq, reduceCtorEq, not_false_eq_true, true_iff]; exact ⟨x.2, x.1, by simp⟩

/-- the common form of the two expressions -/
def datedPattern (es : List Re) : Re :=
  .seq (.grp 1 (.many false anyChar)) (cat ([lit "-2_".toList] ++ datePart ++ es))

theorem tail_iff (es : List Re) (s : Name) :
    runs (cat ([lit "-2_".toList] ++ datePart ++ es)) s ≠ [] ↔
      ∃ h : Head, h.Ok ∧ h.pfx = [] ∧ ∃ w, s = h.text ++ w ∧ runs (cat es) w ≠ [] := by
  rw [runs_ne_nil]
  simp only [runs_ne_nil]
  have hl : ∀ (w s q : Name), (∃ c, (c, q) ∈ runs (lit w) s) ↔ s = w ++ q := by
    intro w s q
    rw [runs_lang _ (noEnd_lit w)]
    simp only [lang_lit]
    constructor
    · rintro ⟨u, h, rfl⟩; exact h
    · intro h; exact ⟨w, h, rfl⟩
  have hg : ∀ (i n : ℕ) (s q : Name), (∃ c, (c, q) ∈ runs (.grp i (times n digit)) s) ↔
      ∃ u, s = u ++ q ∧ DigitsN n u := by
    intro i n s q
    rw [runs_lang _ (show NoEnd (.grp i (times n digit)) from noEnd_times n _ trivial)]
    simp only [Lang, lang_times_digit, DigitsN]
  simp only [datePart, List.cons_append, List.nil_append, mem_runs_cat, hl, hg]
  constructor
  · rintro ⟨r, q1, rfl, q2, ⟨sy, rfl, hsy⟩, q3, ⟨sd, rfl, hsd⟩, q4, rfl, q5, ⟨ey, rfl, hey⟩, q6, ⟨ed, rfl, hed⟩, q7, rfl, c, hc⟩
    exact ⟨⟨[], sy, sd, ey, ed⟩, ⟨hsy, hsd, hey, hed⟩, rfl, q7, by simp [Head.text], r, c, hc⟩
  · rintro ⟨⟨pfx, sy, sd, ey, ed⟩, ⟨hsy, hsd, hey, hed⟩, rfl, w, rfl, r, c, hc⟩
    refine ⟨r, _, ?_, _, ⟨sy, rfl, hsy⟩, _, ⟨sd, rfl, hsd⟩, _, rfl, _, ⟨ey, rfl, hey⟩, _, ⟨ed, rfl, hed⟩, w, rfl, c, hc⟩
    simp [Head.text]

theorem first_datePart (h : Head) (hok : h.Ok) (hp : h.pfx = []) (es : List Re) (w : Name) (c q)
    (hes : First (cat es) w c q) :
    First (cat ([lit "-2_".toList] ++ datePart ++ es)) (h.text ++ w)
      ((2, h.sy) :: (3, h.sd) :: (4, h.ey) :: (5, h.ed) :: c) q := by
  obtain ⟨pfx, sy, sd, ey, ed⟩ := h
  obtain ⟨⟨h1, k1⟩, ⟨h2, k2⟩, ⟨h3, k3⟩, ⟨h4, k4⟩⟩ := hok
  dsimp only at hp h1 k1 h2 k2 h3 k3 h4 k4 ⊢
  subst hp
  have e : (Head.text ⟨[], sy, sd, ey, ed⟩) ++ w =
      "-2_".toList ++ (sy ++ (sd ++ ("-".toList ++ (ey ++ (ed ++ ("_".toList ++ w)))))) := by
    simp [Head.text]
  rw [e]
  have g : ∀ (i n : ℕ) (u r : Name), u.length = n → (∀ c ∈ u, c.isDigit = true) →
      First (.grp i (times n digit)) (u ++ r) [(i, u)] r := by
    rintro i n u r rfl hu
    exact first_grp i (first_times u r hu)
  exact first_cat (c := []) (first_lit _ _) (first_cat (c := [(2, sy)]) (g 2 4 sy _ h1 k1)
    (first_cat (c := [(3, sd)]) (g 3 3 sd _ h2 k2) (first_cat (c := []) (first_lit _ _)
      (first_cat (c := [(4, ey)]) (g 4 4 ey _ h3 k3) (first_cat (c := [(5, ed)]) (g 5 3 ed _ h4 k4)
        (first_cat (c := []) (first_lit _ _) hes))))))

theorem findall_none (e : Re) (s : Name) (h : ∀ k, runs e (s.drop k) = []) : findall e s = [] := by
  unfold findall
  generalize s.length + 1 = n
  induction n generalizing s with
  | zero => rfl
  | succ n ih =>
    rw [findallN, show runs e s = [] from by simpa using h 0]
    dsimp only
    split
    · rfl
    · exact ih _ fun k => by rw [← List.drop_one, List.drop_drop]; exact h _

/-- a beginning of the name after which the remaining expression fits -/
def Dec (es : List Re) (name : Name) (h : Head) : Prop := h.Ok ∧ ∃ w, name = h.text ++ w ∧ runs (cat es) w ≠ []

/-- the search for the dates -/
theorem findall_dated (es : List Re) (hend : ∀ w, '\n' ∉ w → ∀ c r, (c, r) ∈ runs (cat es) w → r = [])
    (name : Name) (hn : '\n' ∉ name) :
    ((¬ ∃ h, Dec es name h) → findall (datedPattern es) name = []) ∧
    ((∃ h, Dec es name h) → ∃ (h : Head) (w : Name) (c : List (ℕ × List Char)), h.Ok ∧ name = h.text ++ w ∧ First (cat es) w c [] ∧
      (∀ h', Dec es name h' → h.pfx.length ≤ h'.pfx.length) ∧
      findall (datedPattern es) name = [(1, h.pfx) :: (2, h.sy) :: (3, h.sd) :: (4, h.ey) :: (5, h.ed) :: c]) := by
  have lift : ∀ k, runs (cat ([lit "-2_".toList] ++ datePart ++ es)) (name.drop k) ≠ [] →
      ∃ h, Dec es name h ∧ h.pfx = name.take k := by
    intro k hk
    obtain ⟨h, hok, hp, w, he, hw⟩ := (tail_iff es _).1 hk
    refine ⟨{ h with pfx := name.take k }, ⟨hok, w, ?_, hw⟩, rfl⟩
    conv_lhs => rw [← List.take_append_drop k name, he]
    simp [Head.text, hp]
  constructor
  · intro hno
    apply findall_none
    intro k
    by_contra hne
    obtain ⟨r, c, hm⟩ := (runs_ne_nil _ _).1 hne
    simp only [datedPattern, runs, List.mem_flatMap, List.mem_map] at hm
    obtain ⟨x, ⟨y, ⟨z, hz, rfl⟩, rfl⟩, y', hy', -⟩ := hm
    rw [if_neg (by simp)] at hz
    obtain ⟨u, hu, -⟩ := (mem_lazyRests _ _ _).1 hz
    dsimp only at hy'
    have hz' : z = name.drop (k + u.length) := by
      rw [← List.drop_drop, hu, List.drop_left]
    rw [hz'] at hy'
    obtain ⟨h, hd, -⟩ := lift (k + u.length) (List.ne_nil_of_mem hy')
    exact hno ⟨h, hd⟩
  · rintro ⟨h0, hd0⟩
    -- the shortest prefix
    have hex : ∃ k, runs (cat ([lit "-2_".toList] ++ datePart ++ es)) (name.drop k) ≠ [] := by
      obtain ⟨hok, w, he, hw⟩ := hd0
      refine ⟨h0.pfx.length, (tail_iff es _).2 ⟨{ h0 with pfx := [] }, hok, rfl, w, ?_, hw⟩⟩
      rw [he]
      simp [Head.text]
    classical
    let k := Nat.find hex
    have hk : runs (cat ([lit "-2_".toList] ++ datePart ++ es)) (name.drop k) ≠ [] := Nat.find_spec hex
    have hmin : ∀ j < k, runs (cat ([lit "-2_".toList] ++ datePart ++ es)) (name.drop j) = [] := by
      intro j hj
      by_contra hne
      exact Nat.find_min hex hj hne
    obtain ⟨h, hok, hp, w, he, hw⟩ := (tail_iff es _).1 hk
    have hkl : k ≤ name.length := by
      by_contra hlt
      rw [List.drop_eq_nil_of_le (by omega)] at he
      have := congrArg List.length he
      simp [Head.text] at this
    have hwn : '\n' ∉ w := by
      intro hm
      apply hn
      have : w <:+ name := ⟨name.take k ++ h.text, by
        rw [List.append_assoc, ← he, List.take_append_drop]⟩
      exact this.subset hm
    obtain ⟨c, r, hf⟩ : ∃ c r, First (cat es) w c r := by
      apply first_of_accepts
      unfold accepts
      cases hx : runs (cat es) w with
      | nil => exact absurd hx hw
      | cons => rfl
    have hr : r = [] := by
      obtain ⟨l, hl⟩ := (first_iff ..).1 hf
      exact hend w hwn c r (by rw [hl]; simp)
    subst hr
    refine ⟨{ h with pfx := name.take k }, w, c, hok, ?_, hf, ?_, ?_⟩
    · conv_lhs => rw [← List.take_append_drop k name, he]
      simp [Head.text, hp]
    · rintro h' ⟨hok', w', he', hw'⟩
      have : runs (cat ([lit "-2_".toList] ++ datePart ++ es)) (name.drop h'.pfx.length) ≠ [] := by
        refine (tail_iff es _).2 ⟨{ h' with pfx := [] }, hok', rfl, w', ?_, hw'⟩
        rw [he']
        simp [Head.text]
      have := Nat.find_min' hex this
      simp only [List.length_take]
      omega
    · have hb := first_datePart h hok hp es w c [] hf
      rw [← he] at hb
      have hall : First (datedPattern es) (name.take k ++ name.drop k)
          ((1, name.take k) :: (2, h.sy) :: (3, h.sd) :: (4, h.ey) :: (5, h.ed) :: c) [] := by
        apply first_lazy
        · intro x hx
          have : x ≠ '\n' := by rintro rfl; exact hn (List.mem_of_mem_take hx)
          simpa [anyChar] using this
        · exact hb
        · intro v v' hv hlt
          rw [List.take_append_drop] at hv
          have hv' : v' = name.drop v.length := by rw [hv, List.drop_left]
          rw [hv']
          apply hmin
          rw [List.length_take] at hlt
          omega
      rw [List.take_append_drop] at hall
      have := findall_single (datedPattern es) [] name _ [] (by simp) hall (by
        rw [← List.take_append_drop k name, he]; simp [Head.text]) (by
        intro j
        rw [List.drop_nil]
        by_contra hne
        obtain ⟨r, c, hm⟩ := (runs_ne_nil _ _).1 hne
        simp only [datedPattern, runs, List.mem_flatMap, List.mem_map] at hm
        obtain ⟨x, ⟨y, ⟨z, hz, rfl⟩, rfl⟩, y', hy', -⟩ := hm
        rw [if_neg (by simp)] at hz
        simp [lazyRests] at hz
        subst hz
        obtain ⟨h, -, -, w, he, -⟩ := (tail_iff es _).1 (List.ne_nil_of_mem hy')
        have := congrArg List.length he
        simp [Head.text] at this)
      simpa using this

/-! ## `parse_grace_file` -/

/-- the remaining expression of `parse_grace_file` -/
def parseTail : List Re :=
  [.grp 6 (.many false anyChar), lit "_".toList, .grp 7 centersParse, lit "_".toList, .grp 8 (.many false anyChar),
    lit "_".toList, .grp 9 digits, .grp 10 (.many false anyChar),
    opt (.grp 11 (oneOf ([".gz", ".gfc", ".txt"].map fun s => lit s.toList)))]

theorem parseTail_noEnd : ∀ e ∈ parseTail, NoEnd e := by
  intro e he
  simp only [parseTail, List.mem_cons, List.not_mem_nil, or_false] at he
  have hone : ∀ l : List String, NoEnd (oneOf (l.map fun s => lit s.toList)) := by
    intro l
    apply noEnd_oneOf
    intro e he
    obtain ⟨s, -, rfl⟩ := List.mem_map.1 he
    exact noEnd_lit _
  rcases he with rfl | rfl | rfl | rfl | rfl | rfl | rfl | rfl | rfl
  · trivial
  · exact noEnd_lit _
  · exact hone _
  · exact noEnd_lit _
  · trivial
  · exact noEnd_lit _
  · exact noEnd_digits
  · trivial
  · exact ⟨hone _, trivial⟩

theorem parseTail_iff (w : Name) (hw : '\n' ∉ w) :
    runs (cat (parseTail ++ [.eos])) w ≠ [] ↔ TailOk w := by
  have hany : ∀ u : Name, '\n' ∉ u → ∀ c ∈ u, anyChar c = true := by
    intro u hu c hc
    have : c ≠ '\n' := by rintro rfl; exact hu hc
    simpa [anyChar] using this
  rw [runs_ne_nil]
  simp only [mem_runs_cat_eos parseTail parseTail_noEnd]
  simp only [parseTail, lang_cat_cons, lang_cat_nil, lang_lit, Lang, lang_digits, lang_opt, centersParse, lang_oneOf]
  constructor
  · rintro ⟨r, hr, u, rfl, aux, _, rfl, -, _, _, rfl, rfl, ce, _, rfl, ⟨e, he, hce⟩, _, _, rfl, rfl, f1, _, rfl, -, _, _, rfl, rfl,
      dg, _, rfl, ⟨hne, hdg⟩, f2, _, rfl, -, sfx, _, rfl, -, rfl⟩
    obtain ⟨s, hs, rfl⟩ := List.mem_map.1 he
    rw [lang_lit] at hce
    subst hce
    cases dg with
    | nil => exact absurd rfl hne
    | cons d ds =>
      refine ⟨aux, s.toList, f1, d, ds ++ f2 ++ sfx ++ r, ?_, hdg d (by simp), by simp⟩
      simp only [List.mem_cons, List.not_mem_nil, or_false] at hs
      rcases hs with rfl | rfl | rfl | rfl | rfl | rfl | rfl | rfl <;> decide
  · rintro ⟨aux, ce, f1, d, rest, hce, hd, rfl⟩
    refine ⟨[], Or.inl rfl, _, by rw [List.append_nil], aux, ['_'] ++ ce ++ ['_'] ++ f1 ++ ['_'] ++ [d] ++ rest, by simp, ?_,
      "_".toList, ce ++ ['_'] ++ f1 ++ ['_'] ++ [d] ++ rest, by simp, rfl, ce, ['_'] ++ f1 ++ ['_'] ++ [d] ++ rest, by simp, ?_,
      "_".toList, f1 ++ ['_'] ++ [d] ++ rest, by simp, rfl, f1, ['_'] ++ [d] ++ rest, by simp, ?_, "_".toList, [d] ++ rest, by simp,
      rfl, [d], rest, rfl, ?_, rest, [], by simp, ?_, [], [], rfl, Or.inr rfl, rfl⟩
    · exact hany _ fun h => hw (by simp [h])
    · simp only [Centers, List.map_cons, List.map_nil, List.mem_cons, List.not_mem_nil, or_false] at hce
      rcases hce with rfl | rfl | rfl | rfl | rfl | rfl | rfl
      · exact ⟨lit "UTCSR".toList, by simp, (lang_lit _ _).2 rfl⟩
      · exact ⟨lit "EIGEN".toList, by simp, (lang_lit _ _).2 rfl⟩
      · exact ⟨lit "GFZOP".toList, by simp, (lang_lit _ _).2 rfl⟩
      · exact ⟨lit "JPLEM".toList, by simp, (lang_lit _ _).2 rfl⟩
      · exact ⟨lit "JPLMSC".toList, by simp, (lang_lit _ _).2 rfl⟩
      · exact ⟨lit "GRGS".toList, by simp, (lang_lit _ _).2 rfl⟩
      · exact ⟨lit "COSTG".toList, by simp, (lang_lit _ _).2 rfl⟩
    · exact hany _ fun h => hw (by simp [h])
    · exact ⟨by simp, by simpa using hd⟩
    · exact hany _ fun h => hw (by simp [h])

theorem parseTail_end (w : Name) (hw : '\n' ∉ w) (c r) (h : (c, r) ∈ runs (cat (parseTail ++ [.eos])) w) : r = [] := by
  obtain ⟨hr, u, rfl, -⟩ := (mem_runs_cat_eos parseTail parseTail_noEnd w r).1 ⟨c, h⟩
  rcases hr with rfl | rfl
  · rfl
  · simp at hw

theorem dec_hasDates (name : Name) (hn : '\n' ∉ name) (h : Head) :
    Dec (parseTail ++ [.eos]) name h ↔ HasDates name h := by
  constructor
  · rintro ⟨hok, w, rfl, hw⟩
    exact ⟨hok, w, rfl, (parseTail_iff w fun hm => hn (by simp [hm])).1 hw⟩
  · rintro ⟨hok, w, rfl, hw⟩
    exact ⟨hok, w, rfl, (parseTail_iff w fun hm => hn (by simp [hm])).2 hw⟩

theorem parsePattern_eq : parsePattern = datedPattern (parseTail ++ [.eos]) := rfl

/-- `parse_grace_file` finds dates exactly if the name has some, and of several possible places it takes the first one -/
theorem parse_dates (name : Name) (hn : '\n' ∉ name) (d : Span) :
    parseGraceFile name = some d ↔
      ∃ h, HasDates name h ∧ d = h.span ∧ ∀ h', HasDates name h' → h.pfx.length ≤ h'.pfx.length := by
  obtain ⟨h1, h2⟩ := findall_dated (parseTail ++ [.eos]) parseTail_end name hn
  unfold parseGraceFile
  rw [parsePattern_eq]
  by_cases hex : ∃ h, Dec (parseTail ++ [.eos]) name h
  · obtain ⟨h, w, c, hok, he, hf, hmin, hfind⟩ := h2 hex
    rw [hfind]
    have hh : HasDates name h := by
      rw [← dec_hasDates name hn]
      exact ⟨hok, w, he, by intro h0; unfold First at hf; rw [h0] at hf; simp at hf⟩
    have val : Option.map (fun c => mkSpan (group c 2) (group c 3) (group c 4) (group c 5))
        [(1, h.pfx) :: (2, h.sy) :: (3, h.sd) :: (4, h.ey) :: (5, h.ed) :: c].getLast? = some h.span := by
      simp [group, List.lookup, Head.span]
    rw [val]
    constructor
    · intro hd
      simp only [Option.some.injEq] at hd
      exact ⟨h, hh, hd.symm, fun h' hh' => hmin h' ((dec_hasDates name hn h').2 hh')⟩
    · rintro ⟨h', hh', rfl, hmin'⟩
      have hlen : h.pfx.length = h'.pfx.length :=
        le_antisymm (hmin h' ((dec_hasDates name hn h').2 hh')) (hmin' h hh)
      obtain ⟨⟨⟨a1, -⟩, ⟨a2, -⟩, ⟨a3, -⟩, ⟨a4, -⟩⟩, w', he', -⟩ := hh'
      obtain ⟨⟨b1, -⟩, ⟨b2, -⟩, ⟨b3, -⟩, ⟨b4, -⟩⟩ := hok
      rw [he] at he'
      simp only [Head.text, List.append_assoc] at he'
      obtain ⟨-, he'⟩ := List.append_inj he' hlen
      obtain ⟨-, he'⟩ := List.append_inj he' rfl
      obtain ⟨e1, he'⟩ := List.append_inj he' (by omega)
      obtain ⟨e2, he'⟩ := List.append_inj he' (by omega)
      obtain ⟨-, he'⟩ := List.append_inj he' rfl
      obtain ⟨e3, he'⟩ := List.append_inj he' (by omega)
      obtain ⟨e4, he'⟩ := List.append_inj he' (by omega)
      simp only [Head.span, e1, e2, e3, e4]
  · rw [h1 hex]
    simp only [List.getLast?_nil, Option.map_none, reduceCtorEq, false_iff]
    rintro ⟨h, hh, -⟩
    exact hex ⟨h, (dec_hasDates name hn h).2 hh⟩

/-- the exception: exactly if the name has no dates -/
theorem parse_raises_iff (name : Name) (hn : '\n' ∉ name) :
    parseGraceFile name = none ↔ ¬ ∃ h, HasDates name h := by
  constructor
  · rintro hnone hex
    obtain ⟨-, h2⟩ := findall_dated (parseTail ++ [.eos]) parseTail_end name hn
    obtain ⟨h0, hh0⟩ := hex
    obtain ⟨h, w, c, hok, he, hf, hmin, hfind⟩ := h2 ⟨h0, (dec_hasDates name hn h0).2 hh0⟩
    have : parseGraceFile name = some h.span := by
      rw [parse_dates name hn]
      refine ⟨h, ?_, rfl, fun h' hh' => hmin h' ((dec_hasDates name hn h').2 hh')⟩
      rw [← dec_hasDates name hn]
      exact ⟨hok, w, he, by intro h0; unfold First at hf; rw [h0] at hf; simp at hf⟩
    rw [hnone] at this
    simp at this
  · intro hno
    cases hp : parseGraceFile name with
    | none => rfl
    | some d =>
      obtain ⟨h, hh, -⟩ := (parse_dates name hn d).1 hp
      exact absurd ⟨h, hh⟩ hno

/-- a name that begins with a product (without a hyphen) and has its dates right after `-2_` gives these dates -/
theorem parse_name (h : Head) (hok : h.Ok) (hp : '-' ∉ h.pfx) (w : Name) (hw : TailOk w) (hn : '\n' ∉ h.text ++ w) :
    parseGraceFile (h.text ++ w) = some h.span := by
  rw [parse_dates _ hn]
  refine ⟨h, ⟨hok, w, rfl, hw⟩, rfl, ?_⟩
  rintro h' ⟨-, w', he, -⟩
  by_contra hlt
  push Not at hlt
  apply hp
  simp only [Head.text, List.append_assoc] at he
  have h1 := congrArg (fun l => l[h'.pfx.length]?) he
  simp only [List.getElem?_append_left hlt, List.getElem?_append_right (le_refl _), Nat.sub_self] at h1
  have : h.pfx[h'.pfx.length]? = some '-' := by rw [h1]; rfl
  exact List.mem_of_getElem? this

end Verif.Names
