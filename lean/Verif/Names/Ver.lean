import Verif.Names.Parse

/-!
# The version in the name of a file
-/
namespace Verif.Names

/-! ## Specification -/

/-- what follows the dates in a name with a version: anything, the center between underscores, anything, an underscore,
two digits for the release and two digits for the version, anything -/
def VersionTail (w : Name) : Prop :=
  ∃ aux center f1 rr vv rest, center ∈ Centers ∧ DigitsN 2 rr ∧ DigitsN 2 vv ∧
    w = aux ++ ['_'] ++ center ++ ['_'] ++ f1 ++ ['_'] ++ rr ++ vv ++ rest

/-- the value of a text of digits -/
def decimalValue : Name → ℕ
  | [] => 0
  | c :: t => (c.toNat - '0'.toNat) * 10 ^ t.length + decimalValue t

/-! ## Helper lemmas -/

theorem intOf_eq (u : Name) : intOf u = decimalValue u := by
  have key : ∀ (u : Name) (a : ℕ), u.foldl (fun a c => 10 * a + (c.toNat - 48)) a = a * 10 ^ u.length + decimalValue u := by
    intro u
    induction u with
    | nil => intro a; simp [decimalValue]
    | cons c t ih =>
      intro a
      simp only [List.foldl_cons, ih, decimalValue, List.length_cons]
      have : '0'.toNat = 48 := rfl
      rw [this]
      ring
  unfold intOf
  rw [key]
  simp

/-- the remaining expression of `reduce_by_date` -/
def versionTail : List Re :=
  [.grp 6 (.many false anyChar), lit "_".toList,
    .grp 7 (oneOf (["UTCSR", "EIGEN", "GFZOP", "JPLEM", "JPLMSC", "GRGS", "COSTG"].map fun s => lit s.toList)),
    lit "_".toList, .grp 8 (.many false anyChar), lit "_".toList, .grp 9 (times 2 digit), .grp 10 (times 2 digit),
    .grp 11 (.many false anyChar), opt (.grp 12 (oneOf ([".gz", ".gfc"].map fun s => lit s.toList)))]

theorem versionPattern_eq : versionPattern = datedPattern (versionTail ++ [.eos]) := rfl

theorem hone (l : List String) : NoEnd (oneOf (l.map fun s => lit s.toList)) := by
  apply noEnd_oneOf
  intro e he
  obtain ⟨s, -, rfl⟩ := List.mem_map.1 he
  exact noEnd_lit _

theorem versionTail_noEnd : ∀ e ∈ versionTail, NoEnd e := by
  intro e he
  simp only [versionTail, List.mem_cons, List.not_mem_nil, or_false] at he
  rcases he with rfl | rfl | rfl | rfl | rfl | rfl | rfl | rfl | rfl | rfl
  · trivial
  · exact noEnd_lit _
  · exact hone _
  · exact noEnd_lit _
  · trivial
  · exact noEnd_lit _
  · exact noEnd_times _ _ trivial
  · exact noEnd_times _ _ trivial
  · trivial
  · exact ⟨hone _, trivial⟩

theorem any_of (u : Name) (hu : '\n' ∉ u) : ∀ c ∈ u, anyChar c = true := by
  intro c hc
  have : c ≠ '\n' := by rintro rfl; exact hu hc
  simpa [anyChar] using this

theorem center_lang (ce : Name) :
    Lang (oneOf (["UTCSR", "EIGEN", "GFZOP", "JPLEM", "JPLMSC", "GRGS", "COSTG"].map fun s => lit s.toList)) ce ↔
      ce ∈ Centers := by
  rw [lang_oneOf]
  simp only [List.mem_map, Centers]
  constructor
  · rintro ⟨e, ⟨s, hs, rfl⟩, h⟩
    rw [lang_lit] at h
    exact ⟨s, hs, h.symm⟩
  · rintro ⟨s, hs, rfl⟩
    exact ⟨_, ⟨s, hs, rfl⟩, (lang_lit _ _).2 rfl⟩

theorem versionTail_iff (w : Name) (hw : '\n' ∉ w) :
    runs (cat (versionTail ++ [.eos])) w ≠ [] ↔ VersionTail w := by
  rw [runs_ne_nil]
  simp only [mem_runs_cat_eos versionTail versionTail_noEnd]
  simp only [versionTail, lang_cat_cons, lang_cat_nil, lang_lit, Lang, lang_times_digit, lang_opt, center_lang]
  constructor
  · rintro ⟨r, hr, u, rfl, aux, _, rfl, -, _, _, rfl, rfl, ce, _, rfl, hce, _, _, rfl, rfl, f1, _, rfl, -, _, _, rfl, rfl,
      rr, _, rfl, hrr, vv, _, rfl, hvv, f2, _, rfl, -, sfx, _, rfl, -, rfl⟩
    exact ⟨aux, ce, f1, rr, vv, f2 ++ sfx ++ r, hce, hrr, hvv, by simp⟩
  · rintro ⟨aux, ce, f1, rr, vv, rest, hce, hrr, hvv, rfl⟩
    refine ⟨[], Or.inl rfl, _, by rw [List.append_nil], aux, ['_'] ++ ce ++ ['_'] ++ f1 ++ ['_'] ++ rr ++ vv ++ rest, by simp, ?_,
      "_".toList, ce ++ ['_'] ++ f1 ++ ['_'] ++ rr ++ vv ++ rest, by simp, rfl, ce, ['_'] ++ f1 ++ ['_'] ++ rr ++ vv ++ rest,
      by simp, hce, "_".toList, f1 ++ ['_'] ++ rr ++ vv ++ rest, by simp, rfl, f1, ['_'] ++ rr ++ vv ++ rest, by simp, ?_,
      "_".toList, rr ++ vv ++ rest, by simp, rfl, rr, vv ++ rest, by simp, hrr, vv, rest, rfl, hvv, rest, [], by simp, ?_,
      [], [], rfl, Or.inr rfl, rfl⟩
    · exact any_of _ fun h => hw (by simp [h])
    · exact any_of _ fun h => hw (by simp [h])
    · exact any_of _ fun h => hw (by simp [h])

theorem versionTail_end (w : Name) (hw : '\n' ∉ w) (c r) (h : (c, r) ∈ runs (cat (versionTail ++ [.eos])) w) : r = [] := by
  obtain ⟨hr, u, rfl, -⟩ := (mem_runs_cat_eos versionTail versionTail_noEnd w r).1 ⟨c, h⟩
  rcases hr with rfl | rfl
  · rfl
  · simp at hw

/-- a lazy group followed by an underscore takes a text without underscore -/
theorem first_lazy_under (i : ℕ) (es : List Re) (u r q : Name) (d) (hu : '\n' ∉ u) (hu' : '_' ∉ u)
    (h : First (cat (lit "_".toList :: es)) r d q) :
    First (cat (.grp i (.many false anyChar) :: lit "_".toList :: es)) (u ++ r) ((i, u) :: d) q := by
  refine first_lazy i anyChar _ u r q d (any_of u hu) h ?_
  intro v w hv hlt
  apply runs_seq_none
  apply runs_lit_none
  rintro ⟨t, rfl⟩
  apply hu'
  have h1 := congrArg (fun l => l[v.length]?) hv
  simp only [List.getElem?_append_left hlt, List.getElem?_append_right (le_refl _), Nat.sub_self] at h1
  have : u[v.length]? = some '_' := by rw [h1]; rfl
  exact List.mem_of_getElem? this

theorem first_center (ce r : Name) (h : ce ∈ Centers) :
    First (oneOf (["UTCSR", "EIGEN", "GFZOP", "JPLEM", "JPLMSC", "GRGS", "COSTG"].map fun s => lit s.toList)) (ce ++ r) [] r := by
  have other : ∀ (a b : String), a.toList.head? ≠ b.toList.head? → a.toList ≠ [] → b.toList ≠ [] →
      runs (lit a.toList) (b.toList ++ r) = [] := by
    intro a b hab ha hb
    apply runs_lit_none
    rintro ⟨t, ht⟩
    apply hab
    have := congrArg List.head? ht
    rw [List.head?_append_of_ne_nil _ ha, List.head?_append_of_ne_nil _ hb] at this
    exact this
  simp only [Centers, List.map_cons, List.map_nil, List.mem_cons, List.not_mem_nil, or_false] at h
  simp only [List.map_cons, List.map_nil, oneOf]
  have hj : runs (lit "JPLEM".toList) ("JPLMSC".toList ++ r) = [] := by
    apply runs_lit_none
    rintro ⟨t, ht⟩
    simp at ht
  have hg : runs (lit "GFZOP".toList) ("GRGS".toList ++ r) = [] := by
    apply runs_lit_none
    rintro ⟨t, ht⟩
    simp at ht
  rcases h with rfl | rfl | rfl | rfl | rfl | rfl | rfl
  · exact first_alt_left (first_lit _ _)
  · exact first_alt_right (other _ _ (by decide) (by decide) (by decide)) (first_alt_left (first_lit _ _))
  · exact first_alt_right (other _ _ (by decide) (by decide) (by decide))
      (first_alt_right (other _ _ (by decide) (by decide) (by decide)) (first_alt_left (first_lit _ _)))
  · exact first_alt_right (other _ _ (by decide) (by decide) (by decide))
      (first_alt_right (other _ _ (by decide) (by decide) (by decide))
        (first_alt_right (other _ _ (by decide) (by decide) (by decide)) (first_alt_left (first_lit _ _))))
  · exact first_alt_right (other _ _ (by decide) (by decide) (by decide))
      (first_alt_right (other _ _ (by decide) (by decide) (by decide))
        (first_alt_right (other _ _ (by decide) (by decide) (by decide)) (first_alt_right hj (first_alt_left (first_lit _ _)))))
  · exact first_alt_right (other _ _ (by decide) (by decide) (by decide))
      (first_alt_right (other _ _ (by decide) (by decide) (by decide))
        (first_alt_right hg (first_alt_right (other _ _ (by decide) (by decide) (by decide))
          (first_alt_right (other _ _ (by decide) (by decide) (by decide)) (first_alt_left (first_lit _ _))))))
  · exact first_alt_right (other _ _ (by decide) (by decide) (by decide))
      (first_alt_right (other _ _ (by decide) (by decide) (by decide))
        (first_alt_right (other _ _ (by decide) (by decide) (by decide)) (first_alt_right (other _ _ (by decide) (by decide) (by decide))
          (first_alt_right (other _ _ (by decide) (by decide) (by decide)) (first_alt_right
            (other _ _ (by decide) (by decide) (by decide)) (first_lit _ _))))))

/-! ## Properties -/

/-- the version can be read exactly if the name has dates and, behind the center, an underscore with four digits -/
theorem version_raises_iff (name : Name) (hn : '\n' ∉ name) :
    versionOf name = none ↔ ¬ ∃ h : Head, h.Ok ∧ ∃ w, name = h.text ++ w ∧ VersionTail w := by
  obtain ⟨h1, h2⟩ := findall_dated (versionTail ++ [.eos]) versionTail_end name hn
  have hdec : ∀ h, Dec (versionTail ++ [.eos]) name h ↔ (h.Ok ∧ ∃ w, name = h.text ++ w ∧ VersionTail w) := by
    intro h
    constructor
    · rintro ⟨hok, w, rfl, hw⟩
      exact ⟨hok, w, rfl, (versionTail_iff w fun hm => hn (by simp [hm])).1 hw⟩
    · rintro ⟨hok, w, rfl, hw⟩
      exact ⟨hok, w, rfl, (versionTail_iff w fun hm => hn (by simp [hm])).2 hw⟩
  unfold versionOf
  rw [versionPattern_eq]
  by_cases hex : ∃ h, Dec (versionTail ++ [.eos]) name h
  · obtain ⟨h, w, c, -, -, -, -, hfind⟩ := h2 hex
    rw [hfind]
    simp only [List.getLast?_singleton, Option.map_some, reduceCtorEq, false_iff, not_not]
    obtain ⟨h, hd⟩ := hex
    exact ⟨h, (hdec h).1 hd⟩
  · rw [h1 hex]
    simp only [List.getLast?_nil, Option.map_none, true_iff]
    rintro ⟨h, hh⟩
    exact hex ⟨h, (hdec h).2 hh⟩

/-- the version of a name: the two digits after the two digits of the release in the part behind the solution, as in
`GSM-2_2002095-2002120_GRAC_UTCSR_BA01_0603` -/
theorem version_name (h : Head) (hok : h.Ok) (hp : '-' ∉ h.pfx) (aux ce f1 rr vv rest : Name) (hce : ce ∈ Centers)
    (haux : '_' ∉ aux) (hf1 : '_' ∉ f1) (hrr : DigitsN 2 rr) (hvv : DigitsN 2 vv)
    (hn : '\n' ∉ h.text ++ (aux ++ ['_'] ++ ce ++ ['_'] ++ f1 ++ ['_'] ++ rr ++ vv ++ rest)) :
    versionOf (h.text ++ (aux ++ ['_'] ++ ce ++ ['_'] ++ f1 ++ ['_'] ++ rr ++ vv ++ rest)) = some (decimalValue vv) := by
  obtain ⟨-, h2⟩ := findall_dated (versionTail ++ [.eos]) versionTail_end _ hn
  have hnw : '\n' ∉ aux ++ ['_'] ++ ce ++ ['_'] ++ f1 ++ ['_'] ++ rr ++ vv ++ rest :=
    fun hm => hn (List.mem_append_right _ hm)
  have hd : Dec (versionTail ++ [.eos]) (h.text ++ (aux ++ ['_'] ++ ce ++ ['_'] ++ f1 ++ ['_'] ++ rr ++ vv ++ rest)) h :=
    ⟨hok, _, rfl, (versionTail_iff _ hnw).2 ⟨aux, ce, f1, rr, vv, rest, hce, hrr, hvv, rfl⟩⟩
  obtain ⟨h', w', c, hok', he, hf, hmin, hfind⟩ := h2 ⟨h, hd⟩
  -- the beginning is the one given
  have hlen : h'.pfx.length = h.pfx.length := by
    refine le_antisymm (hmin h hd) ?_
    by_contra hlt
    push Not at hlt
    apply hp
    simp only [Head.text, List.append_assoc] at he
    have h1 := congrArg (fun l => l[h'.pfx.length]?) he
    simp only [List.getElem?_append_left hlt, List.getElem?_append_right (le_refl _), Nat.sub_self] at h1
    have : h.pfx[h'.pfx.length]? = some '-' := by rw [h1]; rfl
    exact List.mem_of_getElem? this
  have htext : h.text.length = h'.text.length := by
    obtain ⟨⟨a1, -⟩, ⟨a2, -⟩, ⟨a3, -⟩, ⟨a4, -⟩⟩ := hok'
    obtain ⟨⟨b1, -⟩, ⟨b2, -⟩, ⟨b3, -⟩, ⟨b4, -⟩⟩ := hok
    simp only [Head.text, List.length_append]
    omega
  obtain ⟨-, hw⟩ := List.append_inj he htext
  subst hw
  -- the groups behind the dates
  have hlast : ∃ c' q, First (cat [.grp 11 (.many false anyChar), opt (.grp 12 (oneOf ([".gz", ".gfc"].map fun s => lit s.toList))),
      .eos]) rest c' q := by
    apply first_of_accepts
    rw [accepts_iff]
    obtain ⟨c, hc⟩ := (mem_runs_cat_eos [.grp 11 (.many false anyChar),
      opt (.grp 12 (oneOf ([".gz", ".gfc"].map fun s => lit s.toList)))] (by
        intro e he
        simp only [List.mem_cons, List.not_mem_nil, or_false] at he
        rcases he with rfl | rfl
        · trivial
        · exact ⟨hone _, trivial⟩) rest []).2 ⟨Or.inl rfl, rest, by simp, by
          simp only [lang_cat_cons, lang_cat_nil, lang_opt]
          exact ⟨rest, [], by simp, any_of _ fun h => hnw (by simp [h]), [], [], rfl, Or.inr rfl, rfl⟩⟩
    exact ⟨c, [], hc⟩
  obtain ⟨c', q, hlast⟩ := hlast
  have g : ∀ (i n : ℕ) (u r : Name), DigitsN n u → First (.grp i (times n digit)) (u ++ r) [(i, u)] r := by
    rintro i n u r ⟨rfl, hu⟩
    exact first_grp i (first_times u r hu)
  have hfull : First (cat (versionTail ++ [.eos])) (aux ++ ("_".toList ++ (ce ++ ("_".toList ++ (f1 ++ ("_".toList ++
      (rr ++ (vv ++ rest)))))))) ((6, aux) :: ([] ++ ([(7, ce)] ++ ([] ++ ((8, f1) :: ([] ++ ([(9, rr)] ++ ([(10, vv)] ++ c')))))))) q :=
    first_lazy_under 6 _ aux _ _ _ (fun h => hnw (by simp [h])) haux
      (first_cat (first_lit _ _) (first_cat (first_grp 7 (first_center ce _ hce)) (first_cat (first_lit _ _)
        (first_lazy_under 8 _ f1 _ _ _ (fun h => hnw (by simp [h])) hf1
          (first_cat (first_lit _ _) (first_cat (g 9 2 rr _ hrr) (first_cat (g 10 2 vv _ hvv) hlast)))))))
  have hsame : c = (6, aux) :: (7, ce) :: (8, f1) :: (9, rr) :: (10, vv) :: c' := by
    have e : aux ++ ['_'] ++ ce ++ ['_'] ++ f1 ++ ['_'] ++ rr ++ vv ++ rest =
        aux ++ ("_".toList ++ (ce ++ ("_".toList ++ (f1 ++ ("_".toList ++ (rr ++ (vv ++ rest))))))) := by simp
    rw [e] at hf
    unfold First at hf hfull
    rw [hfull] at hf
    simp only [Option.some.injEq, Prod.mk.injEq] at hf
    rw [← hf.1]
    simp
  unfold versionOf
  rw [versionPattern_eq, hfind, hsame]
  simp [group, List.lookup, intOf_eq]

/-- blocks without an underscore -/
theorem cut_under (a b s t : Name) (ha : '_' ∉ a) (hb : '_' ∉ b) (h : a ++ '_' :: s = b ++ '_' :: t) : a = b ∧ s = t := by
  induction a generalizing b with
  | nil =>
    cases b with
    | nil => simpa using h
    | cons d b =>
      simp only [List.nil_append, List.cons_append, List.cons.injEq] at h
      exact absurd (by simp [← h.1]) hb
  | cons c a ih =>
    cases b with
    | nil =>
      simp only [List.nil_append, List.cons_append, List.cons.injEq] at h
      exact absurd (by simp [h.1]) ha
    | cons d b =>
      simp only [List.cons_append, List.cons.injEq] at h
      obtain ⟨h1, h2⟩ := ih b (fun hm => ha (by simp [hm])) (fun hm => hb (by simp [hm])) h.2
      exact ⟨by rw [h.1, h1], h2⟩

/-- the version of the Release-05 fields of GFZ (`005a`) cannot be read -/
theorem version_gfz_rl05 (name : Name) (hn : '\n' ∉ name)
    (h : ∃ d1 d2 n t z, Digits d1 ∧ Digits d2 ∧ Digits n ∧ OldTail "GFZ".toList "RL05".toList "GSM".toList t ∧ Ending z ∧
          name = "GSM".toList ++ "-2_".toList ++ d1 ++ ['-'] ++ d2 ++ ['_'] ++ n ++ t ++ z) :
    versionOf name = none := by
  rw [version_raises_iff name hn]
  rintro ⟨hd, hok, w, he, aux, ce, f1, rr, vv, rest, hce, hrr, hvv, rfl⟩
  obtain ⟨d1, d2, n, t, z, h1, h2, h3, ht, hz, rfl⟩ := h
  have nod : ∀ u : Name, (∀ c ∈ u, c.isDigit = true) → u.count '_' = 0 := by
    intro u hu
    rw [List.count_eq_zero]
    intro hm
    exact absurd (hu _ hm) (by decide)
  have hzc : z.count '_' = 0 := by
    obtain ⟨g, nl, rfl, hg, hnl⟩ := hz
    rcases hg with rfl | rfl <;> rcases hnl with rfl | rfl <;> decide
  have hcc : ce.count '_' = 0 := by
    have all : ∀ x ∈ Centers, x.count '_' = 0 := by decide
    exact all ce hce
  have hcount := congrArg (List.count '_') he
  obtain ⟨tk, htk, htk'⟩ : ∃ tk : Name, t = "_EIGEN_".toList ++ tk ++ "_005a".toList ∧ '_' ∉ tk := by
    simp [OldTail] at ht
    rcases ht with rfl | rfl
    · exact ⟨"G---".toList, by decide, by decide⟩
    · exact ⟨"GK2-".toList, by decide, by decide⟩
  subst htk
  obtain ⟨⟨-, k1⟩, ⟨-, k2⟩, ⟨-, k3⟩, ⟨-, k4⟩⟩ := hok
  have c0 : ("GSM".toList).count '_' = 0 := by decide
  have c1 : ("-2_".toList).count '_' = 1 := by decide
  have c2 : ("_EIGEN_".toList).count '_' = 2 := by decide
  have c3 : ("_005a".toList).count '_' = 1 := by decide
  have c4 : (['_'] : Name).count '_' = 1 := by decide
  have c5 : (['-'] : Name).count '_' = 0 := by decide
  have c6 : tk.count '_' = 0 := List.count_eq_zero.2 htk'
  simp only [Head.text, List.count_append, nod _ h1.2, nod _ h2.2, nod _ h3.2, hzc, hcc, nod _ k1, nod _ k2, nod _ k3, nod _ k4,
    nod _ hrr.2, nod _ hvv.2, c0, c1, c2, c3, c4, c5, c6] at hcount
  have p0 : '_' ∉ hd.pfx := List.count_eq_zero.1 (by omega)
  have p1 : '_' ∉ aux := List.count_eq_zero.1 (by omega)
  have p2 : '_' ∉ f1 := List.count_eq_zero.1 (by omega)
  have nm : ∀ u : Name, (∀ c ∈ u, c.isDigit = true) → '_' ∉ u := fun u hu => List.count_eq_zero.1 (nod u hu)
  have e : ("GSM-2".toList) ++ '_' :: ((d1 ++ '-' :: d2) ++ '_' :: (n ++ '_' :: ("EIGEN".toList ++ '_' :: (tk ++ '_' ::
      ("005a".toList ++ z))))) =
      (hd.pfx ++ "-2".toList) ++ '_' :: ((hd.sy ++ hd.sd ++ '-' :: (hd.ey ++ hd.ed)) ++ '_' :: (aux ++ '_' :: (ce ++ '_' :: (f1 ++ '_' ::
        (rr ++ vv ++ rest))))) := by
    simp only [Head.text] at he
    simpa using he
  have g1 := (cut_under _ _ _ _ (by decide) (by
    intro hm; rcases List.mem_append.1 hm with hm | hm
    · exact p0 hm
    · revert hm; decide) e).2
  have g2 := (cut_under _ _ _ _ (by
    intro hm
    simp only [List.mem_append, List.mem_cons] at hm
    rcases hm with hm | hm | hm
    · exact nm _ h1.2 hm
    · revert hm; decide
    · exact nm _ h2.2 hm) (by
    intro hm
    simp only [List.mem_append, List.mem_cons] at hm
    rcases hm with (hm | hm) | hm | hm | hm
    · exact nm _ k1 hm
    · exact nm _ k2 hm
    · revert hm; decide
    · exact nm _ k3 hm
    · exact nm _ k4 hm) g1).2
  have g3 := (cut_under _ _ _ _ (nm _ h3.2) p1 g2).2
  have g4 := (cut_under _ _ _ _ (by decide) (List.count_eq_zero.1 hcc) g3).2
  have g5 := (cut_under _ _ _ _ htk' p2 g4).2
  have hlen : rr.length + vv.length = 4 := by rw [hrr.1, hvv.1]
  have h4 : (rr ++ vv)[3]? = some 'a' := by
    have := congrArg (fun l => l[3]?) g5
    rw [show (rr ++ vv ++ rest)[3]? = (rr ++ vv)[3]? from
      List.getElem?_append_left (by rw [List.length_append]; omega)] at this
    rw [← this]
    rfl
  have hmem := List.mem_of_getElem? h4
  rcases List.mem_append.1 hmem with hm | hm
  · exact absurd (hrr.2 _ hm) (by decide)
  · exact absurd (hvv.2 _ hm) (by decide)

end Verif.Names
