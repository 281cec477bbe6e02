import Verif.GraceText.Spec
import Verif.LoveText.Lemmas
import Verif.Gfc.Match
import Verif.Input.Read

/-!
# Lemmas on the names and lines of Level-2 files
-/
namespace Verif.GraceText
open Verif.SLR Verif.Names Verif.Input
open Verif.GIA (Tok)

/-! ## Names -/

/-- two texts differ within their common length -/
def differ (v w : Name) : Bool := v.take (min v.length w.length) != w.take (min v.length w.length)

theorem not_prefix (v w r : Name) (h : differ v w = true) : ¬ v <+: w ++ r := by
  rintro ⟨t, ht⟩
  unfold differ at h
  simp only [bne_iff_ne, ne_eq] at h
  apply h
  have := congrArg (List.take (min v.length w.length)) ht
  rwa [List.take_append_of_le_length (by omega), List.take_append_of_le_length (by omega)] at this

theorem first_oneOf (ws : List Name) (w r : Name) (hw : w ∈ ws) (hd : ∀ v ∈ ws, v ≠ w → differ v w = true) :
    First (oneOf (ws.map lit)) (w ++ r) [] r := by
  induction ws with
  | nil => simp at hw
  | cons v vs ih =>
    cases vs with
    | nil =>
      simp only [List.mem_singleton] at hw
      subst hw
      exact first_lit w r
    | cons u us =>
      change First (.alt (lit v) (oneOf ((u :: us).map lit))) (w ++ r) [] r
      by_cases hv : v = w
      · subst hv; exact first_alt_left (first_lit v r)
      · refine first_alt_right (runs_lit_none v _ (not_prefix v w r (hd v (by simp) hv))) (ih ?_ fun x hx => hd x (by simp [hx]))
        rcases List.mem_cons.1 hw with rfl | h
        · exact absurd rfl hv
        · exact h

theorem runs_sep_none (s c : Char) (w : Name) (es : List Re) (h : c ≠ s) : runs (cat (lit [s] :: es)) (c :: w) = [] :=
  runs_seq_none (runs_lit_none _ _ (by rintro ⟨t, ht⟩; simp at ht; exact h ht.1.symm))

theorem lit_underscore : lit "_".toList = lit ['_'] := rfl

/-- what follows the dates -/
theorem first_tail (n : L2Name) (h : n.Ok) :
    ∃ c, First (cat (parseTail ++ [.eos]))
        (n.mission ++ ['_'] ++ n.center ++ ['_'] ++ n.kind ++ ['_'] ++ n.release ++ n.more ++ n.suffix) c [] ∧
      (c.lookup 1 = none ∧ c.lookup 2 = none ∧ c.lookup 3 = none ∧ c.lookup 4 = none ∧ c.lookup 5 = none) ∧
      group c 6 = n.mission ∧ group c 7 = n.center ∧ group c 9 = n.release ∧ group c 11 = n.suffix := by
  have hl := h.line
  simp only [L2Name.text, List.mem_append, not_or] at hl
  obtain ⟨-, ⟨⟨⟨⟨⟨⟨⟨⟨l1, -⟩, l2⟩, -⟩, l3⟩, -⟩, l4⟩, l5⟩, l6⟩⟩ := hl
  -- the suffix
  have hsuf : ∃ cs, First (cat [opt (.grp 11 (oneOf ([".gz", ".gfc", ".txt"].map fun s => lit s.toList))), .eos])
      n.suffix cs [] ∧ group cs 11 = n.suffix ∧ ∀ i ≠ 11, cs.lookup i = none := by
    have heos : First (cat [Re.eos]) [] [] [] := by unfold First; simp [cat, runs]
    have hs := h.suffix
    simp only [List.map_cons, List.map_nil, List.mem_cons, List.not_mem_nil, or_false] at hs
    have emp : runs (.grp 11 (oneOf ([".gz", ".gfc", ".txt"].map fun s => lit s.toList))) [] = [] := by decide
    rcases hs with hs | hs | hs | hs
    · refine ⟨[], ?_, by rw [hs]; rfl, fun _ _ => rfl⟩
      rw [hs]
      exact first_cat (c := []) (first_alt_right emp rfl) heos
    all_goals
      refine ⟨[(11, n.suffix)], ?_, by simp [group], fun i hi => by
        have : (i == 11) = false := by simpa using hi
        simp [List.lookup, this]⟩
      have := first_oneOf ([".gz", ".gfc", ".txt"].map String.toList) n.suffix [] (by rw [hs]; decide) (by rw [hs]; decide)
      have e : oneOf (List.map lit ([".gz", ".gfc", ".txt"].map String.toList)) =
          oneOf ([".gz", ".gfc", ".txt"].map fun s => lit s.toList) := rfl
      rw [e] at this
      have g := first_grp 11 this
      rw [List.append_nil] at g
      exact first_cat (c := [(11, n.suffix)]) (first_alt_left g) heos
  obtain ⟨cs, hcs, g11, hno⟩ := hsuf
  -- more
  have hmore : First (cat [.grp 10 (.many false anyChar), opt (.grp 11 (oneOf ([".gz", ".gfc", ".txt"].map fun s => lit s.toList))), .eos])
      (n.more ++ n.suffix) ((10, n.more) :: cs) [] := by
    refine Gfc.first_until 10 _ n.more n.suffix [] cs l5 hcs ?_
    intro c w hc
    have hdot : c ≠ '.' := by rintro rfl; exact h.more.1 hc
    have hx : runs (.grp 11 (oneOf ([".gz", ".gfc", ".txt"].map fun s => lit s.toList))) (c :: w) = [] := by
      have hno : ∀ t : String, t.toList.head? = some '.' → runs (lit t.toList) (c :: w) = [] := by
        intro t ht
        apply runs_lit_none
        rintro ⟨r, hr⟩
        cases hh : t.toList with
        | nil => rw [hh] at ht; simp at ht
        | cons a b => rw [hh] at ht hr; simp at ht hr; exact hdot (by rw [← hr.1, ht])
      simp only [List.map_cons, List.map_nil, oneOf, runs, hno ".gz" (by decide), hno ".gfc" (by decide),
        hno ".txt" (by decide), List.append_nil, List.map_nil]
    have : runs (cat [opt (.grp 11 (oneOf ([".gz", ".gfc", ".txt"].map fun s => lit s.toList))), Re.eos]) (c :: w) =
        runs (cat [Re.eos]) (c :: w) := by
      change runs (.seq (.alt _ .eps) (cat [Re.eos])) (c :: w) = _
      rw [runs, runs, hx]
      simp [runs]
    rw [this]
    change runs (.seq .eos .eps) (c :: w) = []
    apply runs_seq_none
    simp only [runs]
    rw [if_neg]
    rintro (h0 | h0)
    · simp at h0
    · simp at h0
      rw [h0.1] at hc
      exact l5 hc
  -- release
  have hrel := first_cat (first_grp 9 (first_digits n.release (n.more ++ n.suffix) h.release.1 h.release.2 (by
    intro c hc
    cases hm : n.more with
    | nil =>
      rw [hm, List.nil_append] at hc
      have hs := h.suffix
      simp only [List.map_cons, List.map_nil, List.mem_cons, List.not_mem_nil, or_false] at hs
      rcases hs with hs | hs | hs | hs <;> rw [hs] at hc
      · simp at hc
      · have : c = '.' := by simpa using hc.symm
        rw [this]; decide
      · have : c = '.' := by simpa using hc.symm
        rw [this]; decide
      · have : c = '.' := by simpa using hc.symm
        rw [this]; decide
    | cons a b =>
      rw [hm] at hc
      simp at hc
      exact h.more.2 c (by rw [hm, hc]; simp)))) hmore
  have hk := Gfc.first_until 8 (lit ['_'] :: _) n.kind ('_' :: (n.release ++ (n.more ++ n.suffix))) [] _ l3
    (first_cat (first_lit ['_'] _) hrel) (by
      intro c w hc
      exact runs_sep_none '_' c w _ (by rintro rfl; exact h.kind hc))
  have hce : First (.grp 7 centersParse) (n.center ++ ('_' :: (n.kind ++ ('_' :: (n.release ++ (n.more ++ n.suffix))))))
      [(7, n.center)] ('_' :: (n.kind ++ ('_' :: (n.release ++ (n.more ++ n.suffix))))) := by
    have hc := h.center
    have key : ∀ w ∈ Centers, ∀ v ∈ ["UTCSR", "EIGEN", "GFZOP", "JPLEM", "JPLMSC", "GRGS", "COSTG", "GRGS"].map String.toList,
        v ≠ w → differ v w = true := by decide
    have key2 : ∀ w ∈ Centers, w ∈ ["UTCSR", "EIGEN", "GFZOP", "JPLEM", "JPLMSC", "GRGS", "COSTG", "GRGS"].map String.toList := by
      decide
    exact first_grp 7 (first_oneOf _ n.center _ (key2 _ hc) (key _ hc))
  have hm := Gfc.first_until 6 (lit ['_'] :: _) n.mission _ [] _ l1
    (first_cat (first_lit ['_'] _) (first_cat hce (first_cat (first_lit ['_'] _) hk))) (by
      intro c w hc
      exact runs_sep_none '_' c w _ (by rintro rfl; exact h.mission hc))
  simp only [List.nil_append, List.cons_append] at hm
  refine ⟨(6, n.mission) :: (7, n.center) :: (8, n.kind) :: (9, n.release) :: (10, n.more) :: cs, ?_, ?_, ?_, ?_, ?_, ?_⟩
  · have e : n.mission ++ ['_'] ++ n.center ++ ['_'] ++ n.kind ++ ['_'] ++ n.release ++ n.more ++ n.suffix =
        n.mission ++ '_' :: (n.center ++ '_' :: (n.kind ++ '_' :: (n.release ++ (n.more ++ n.suffix)))) := by simp
    rw [e]
    exact hm
  · simp [List.lookup, hno]
  · simp [group, List.lookup]
  · simp [group, List.lookup]
  · simp [group, List.lookup]
  · simpa [group, List.lookup] using g11

theorem tailOk (n : L2Name) (h : n.Ok) :
    TailOk (n.mission ++ ['_'] ++ n.center ++ ['_'] ++ n.kind ++ ['_'] ++ n.release ++ n.more ++ n.suffix) := by
  cases hr : n.release with
  | nil => exact absurd hr h.release.1
  | cons d ds =>
    exact ⟨n.mission, n.center, n.kind, d, ds ++ n.more ++ n.suffix, h.center, h.release.2 d (by simp [hr]), by simp⟩

/-- the parts of a name -/
def L2Name.parts (n : L2Name) : Parts :=
  ⟨n.head.pfx, n.head.sy, n.head.sd, n.head.ey, n.head.ed, n.mission, n.center, n.release, n.suffix⟩

/-- a name in order is taken apart into its parts -/
theorem parse_parts (n : L2Name) (h : n.Ok) : parseFile n.text = some n.parts := by
  obtain ⟨c, hc, ⟨k1, k2, k3, k4, k5⟩, g6, g7, g9, g11⟩ := first_tail n h
  have hd : HasDates n.text n.head := ⟨h.head, _, rfl, tailOk n h⟩
  obtain ⟨h0, w, c', hok, he, hf, hmin, hfind⟩ := (findall_dated (parseTail ++ [.eos]) parseTail_end n.text h.line).2
    ⟨n.head, (dec_hasDates _ h.line _).2 hd⟩
  -- the beginning is the one of the name
  have hlen : h0.pfx.length = n.head.pfx.length := by
    refine le_antisymm (hmin n.head ((dec_hasDates _ h.line _).2 hd)) ?_
    by_contra hlt
    push Not at hlt
    apply h.pfx
    have he' := he
    simp only [L2Name.text, Head.text, List.append_assoc] at he'
    have h1 := congrArg (fun l => l[h0.pfx.length]?) he'
    simp only [List.getElem?_append_left hlt, List.getElem?_append_right (le_refl _), Nat.sub_self] at h1
    have : n.head.pfx[h0.pfx.length]? = some '-' := by rw [h1]; rfl
    exact List.mem_of_getElem? this
  obtain ⟨⟨a1, -⟩, ⟨a2, -⟩, ⟨a3, -⟩, ⟨a4, -⟩⟩ := hok
  obtain ⟨⟨b1, -⟩, ⟨b2, -⟩, ⟨b3, -⟩, ⟨b4, -⟩⟩ := h.head
  simp only [L2Name.text, Head.text, List.append_assoc] at he
  obtain ⟨e0, he⟩ := List.append_inj he hlen.symm
  obtain ⟨-, he⟩ := List.append_inj he rfl
  obtain ⟨e1, he⟩ := List.append_inj he (by omega)
  obtain ⟨e2, he⟩ := List.append_inj he (by omega)
  obtain ⟨-, he⟩ := List.append_inj he rfl
  obtain ⟨e3, he⟩ := List.append_inj he (by omega)
  obtain ⟨e4, he⟩ := List.append_inj he (by omega)
  obtain ⟨-, he⟩ := List.append_inj he rfl
  have hcc : c' = c := by
    rw [← he] at hf
    simp only [List.append_assoc] at hc
    unfold First at hf hc
    rw [hf] at hc
    simpa using hc
  subst hcc
  unfold parseFile
  rw [parsePattern_eq, hfind, ← e0, ← e1, ← e2, ← e3, ← e4]
  simp only [List.getLast?_singleton, Option.map_some, L2Name.parts, Option.some.injEq, Parts.mk.injEq]
  simp only [group, List.lookup] at g6 g7 g9 g11 ⊢
  simp [g6, g7, g9, g11]

/-! ## Lines -/

theorem indexAt_is (line : List Char) (ws : List (List Char)) (h : Words line ws) (k n : ℕ) (w : List Char)
    (hw : ws[k]? = some w) (hn : IsNat w n) : indexAt line k = some n := by
  obtain ⟨s, d, ds, rfl, hv⟩ := hn
  unfold indexAt
  rw [split_words line ws h, hw]
  simp only [Option.bind_some, pyInt_chars, hv]
  simp

theorem floatAt_is (line : List Char) (ws : List (List Char)) (h : Words line ws) (k : ℕ) (t : Tok)
    (hw : ws[k]? = some t.chars) : floatAt line k = some t.val := by
  unfold floatAt
  rw [split_words line ws h, hw]
  simp only [Option.bind_some, GIA.pyFloat_tok]

/-- a line as it is understood with a truncation: data outside of it are ignored -/
def cut (L M : ℕ) : FileLine ℚ → FileLine ℚ
  | .coef l m c s ec es => if l ≤ L ∧ m ≤ M then .coef l m c s ec es else .other
  | .drift l m c s => .drift l m c s
  | .other => .other

theorem parseLine_says (flag : Name) (hf : ¬ flag <+: "GRDOTA".toList) (hf' : ¬ "GRDOTA".toList <+: flag) (L M : ℕ)
    (line : List Char) (x : FileLine ℚ) (h : Says flag line x) : parseLine flag L M line = some (cut L M x) := by
  cases h with
  | coef key wl wm l m c s ec es more hp hw hl hm =>
    unfold parseLine
    rw [if_pos (by rwa [List.isPrefixOf_iff_prefix]), indexAt_is line _ hw 1 l wl rfl hl, indexAt_is line _ hw 2 m wm rfl hm]
    simp only [cut]
    split
    · unfold coefOf
      rw [floatAt_is line _ hw 3 c rfl, floatAt_is line _ hw 4 s rfl, floatAt_is line _ hw 5 ec rfl,
        floatAt_is line _ hw 6 es rfl]
    · rfl
  | drift key wl wm l m c s more hp hw hl hm =>
    have hno : ¬ flag <+: line := by
      intro hq
      rcases List.prefix_or_prefix_of_prefix hp hq with h | h
      · exact hf' h
      · exact hf h
    unfold parseLine
    rw [if_neg (by rwa [List.isPrefixOf_iff_prefix]), if_pos (by rwa [List.isPrefixOf_iff_prefix]),
      indexAt_is line _ hw 1 l wl rfl hl, indexAt_is line _ hw 2 m wm rfl hm]
    simp only [cut]
    unfold driftOf
    rw [floatAt_is line _ hw 3 c rfl, floatAt_is line _ hw 4 s rfl]
  | other h1 h2 =>
    unfold parseLine
    rw [if_neg (by rwa [List.isPrefixOf_iff_prefix]), if_neg (by rwa [List.isPrefixOf_iff_prefix])]
    rfl

theorem mapM_says (flag : Name) (hf : ¬ flag <+: "GRDOTA".toList) (hf' : ¬ "GRDOTA".toList <+: flag) (L M : ℕ)
    (lines : List (List Char)) (xs : List (FileLine ℚ)) (h : List.Forall₂ (Says flag) lines xs) :
    lines.mapM (parseLine flag L M) = some (xs.map (cut L M)) := by
  induction h with
  | nil => rfl
  | cons h1 _ ih => rw [List.mapM_cons, parseLine_says flag hf hf' L M _ _ h1, ih]; rfl

theorem l2Lines_cut (rl : Bool) (L M : ℕ) (xs : List (FileLine ℚ)) (st : L2 ℚ) :
    l2Lines rl L M st (xs.map (cut L M)) = l2Lines rl L M st xs := by
  induction xs generalizing st with
  | nil => rfl
  | cons x xs ih =>
    have : l2Step rl L M st (cut L M x) = l2Step rl L M st x := by
      cases x with
      | coef l m c s ec es =>
        by_cases h : l ≤ L ∧ m ≤ M
        · simp [cut, h]
        · simp [cut, h, l2Step]
      | drift => rfl
      | other => rfl
    simp only [List.map_cons, l2Lines, this]
    cases l2Step rl L M st x with
    | error => rfl
    | ok st' => exact ih st'

theorem readGrace_cut (rl gsm pt : Bool) (ctr : Center) (time : ℚ) (L M : ℕ) (xs : List (FileLine ℚ)) :
    readGrace rl gsm pt ctr time L M (xs.map (cut L M)) = readGrace rl gsm pt ctr time L M xs := by
  unfold readGrace
  rw [l2Lines_cut]

/-- lines without quotation marks are not changed -/
theorem subQuotes_plain (n : ℕ) (s : List Char) (h : '"' ∉ s) : subQuotes n s = s := by
  induction n generalizing s with
  | zero => rfl
  | succ n ih =>
    cases s with
    | nil => rfl
    | cons c s =>
      have : runs quoteRe (c :: s) = [] := runs_sep_none '"' c s _ (by rintro rfl; exact h (by simp))
      rw [subQuotes, this]
      simp only
      rw [ih s fun hm => h (by simp [hm])]

theorem headOf_eq (flag : Name) (lines : List (List Char)) (h : ∀ x ∈ headLines flag lines, '"' ∉ x) :
    headOf flag lines = headLines flag lines := by
  have e : (lines.filter fun x => !(flag.isPrefixOf x) && !("GRDOTA".toList.isPrefixOf x)) = headLines flag lines := by
    unfold headLines
    apply List.filter_congr
    intro x _
    have h1 := List.isPrefixOf_iff_prefix (l₁ := flag) (l₂ := x)
    generalize "GRDOTA".toList = g
    have h2 := List.isPrefixOf_iff_prefix (l₁ := g) (l₂ := x)
    by_cases a : flag <+: x <;> by_cases b : g <+: x <;>
      simp only [a, b, iff_true, iff_false, Bool.not_eq_true] at h1 h2 <;> rw [h1, h2] <;> simp [a, b]
  unfold headOf
  rw [e]
  conv_rhs => rw [← List.map_id (headLines flag lines)]
  exact List.map_congr_left fun x hx => subQuotes_plain _ x (h x hx)

end Verif.GraceText
