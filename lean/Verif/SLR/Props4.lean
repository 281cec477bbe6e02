import Verif.SLR.Props3
import Verif.Time.Calendar

/-!
# Property C76, continued: the files of harmonics of degree 5
-/
namespace Verif.SLR
open Verif.Time Verif.Time.Spec

/-! ## Specification -/

/-- the text is an integer -/
def IsInt (w : List Char) (n : ℤ) : Prop := ∃ s d ds, w = intChars s d ds ∧ n = s.val * decimal (d :: ds)

/-- the text is a number with a decimal point -/
def IsNum (w : List Char) (q : ℚ) : Prop := ∃ x : Lit, w = x.chars ∧ q = x.val

/-- the same, with the exponent letter of Fortran allowed -/
def IsNumD (w : List Char) (q : ℚ) : Prop := ∃ x : Lit, w.map (fun c => if c = 'D' then 'E' else c) = x.chars ∧ q = x.val

/-- degree, order and four numbers -/
structure Coef where
  l : ℕ
  m : ℕ
  c : ℚ
  s : ℚ
  ec : ℚ
  es : ℚ

/-- a line of the mean field: degree, order, coefficients, errors -/
def MeanLine (line : Line) (k : Coef) : Prop :=
  ∃ w0 w1 w2 w3 w4 w5 r, Words line (w0 :: w1 :: w2 :: w3 :: w4 :: w5 :: r) ∧ IsInt w0 k.l ∧ IsInt w1 k.m ∧
    IsNumD w2 k.c ∧ IsNumD w3 k.s ∧ IsNumD w4 k.ec ∧ IsNumD w5 k.es

/-- a line of an anomaly field: degree, order, coefficients, two further columns, errors -/
def AnomalyLine (line : Line) (k : Coef) : Prop :=
  ∃ w0 w1 w2 w3 w4 w5 w6 w7 r, Words line (w0 :: w1 :: w2 :: w3 :: w4 :: w5 :: w6 :: w7 :: r) ∧
    IsInt w0 k.l ∧ IsInt w1 k.m ∧ IsNum w2 k.c ∧ IsNum w3 k.s ∧ IsNum w6 k.ec ∧ IsNum w7 k.es

/-- a line of a weekly field: degree, order, coefficients -/
def WeekLine (line : Line) (k : Coef) : Prop :=
  ∃ w0 w1 w2 w3 r, Words line (w0 :: w1 :: w2 :: w3 :: r) ∧ IsInt w0 k.l ∧ IsInt w1 k.m ∧ IsNum w2 k.c ∧
    IsNum w3 k.s ∧ k.ec = 0 ∧ k.es = 0

/-- nineteen coefficients with different degrees and orders up to 6 -/
def Complete (ks : List Coef) : Prop :=
  ks.length = 19 ∧ (∀ k ∈ ks, k.l ≤ 6 ∧ k.m ≤ 6) ∧ ks.Pairwise fun a b => ¬ (a.l = b.l ∧ a.m = b.m)

/-- the field has the listed coefficients and zeros for all others -/
def Field (ks : List Coef) (F : Tab) : Prop :=
  (∀ k ∈ ks, F k.l k.m = (k.c, k.s, k.ec, k.es)) ∧ ∀ l m, (∀ k ∈ ks, ¬ (k.l = l ∧ k.m = m)) → F l m = 0

/-! ## Blocks of coefficients -/

theorem pyInt_is (w : List Char) (n : ℤ) (h : IsInt w n) : pyInt w = some n := by
  obtain ⟨s, d, ds, rfl, rfl⟩ := h; exact pyInt_chars s d ds

theorem pyFloat_is (w : List Char) (q : ℚ) (h : IsNum w q) : pyFloat w = some q := by
  obtain ⟨x, rfl, rfl⟩ := h; exact pyFloat_lit x

theorem floatD_is (w : List Char) (q : ℚ) (h : IsNumD w q) : floatD w = some q := by
  obtain ⟨x, hx, rfl⟩ := h
  unfold floatD
  rw [hx]; exact pyFloat_lit x

theorem idx7_nat (n : ℕ) (h : n ≤ 6) : idx7 n = some n := by
  unfold idx7; rw [if_pos (by omega)]; simp

theorem foldl_put (ks : List Coef) (hp : ks.Pairwise fun a b => ¬ (a.l = b.l ∧ a.m = b.m)) (t : Tab) :
    (∀ k ∈ ks, (ks.foldl (fun t k => put t k.l k.m (k.c, k.s, k.ec, k.es)) t) k.l k.m = (k.c, k.s, k.ec, k.es)) ∧
    ∀ l m, (∀ k ∈ ks, ¬ (k.l = l ∧ k.m = m)) →
      (ks.foldl (fun t k => put t k.l k.m (k.c, k.s, k.ec, k.es)) t) l m = t l m := by
  induction ks generalizing t with
  | nil => simp
  | cons a ks ih =>
    rw [List.pairwise_cons] at hp
    obtain ⟨i1, i2⟩ := ih hp.2 (put t a.l a.m (a.c, a.s, a.ec, a.es))
    rw [List.foldl_cons]
    refine ⟨?_, ?_⟩
    · intro k hk
      rcases List.mem_cons.1 hk with rfl | hk
      · rw [i2 k.l k.m fun b hb h => hp.1 b hb ⟨h.1.symm, h.2.symm⟩]
        simp [put]
      · exact i1 k hk
    · intro l m h
      rw [i2 l m fun k hk => h k (by simp [hk])]
      unfold put
      rw [if_neg]
      rintro ⟨rfl, rfl⟩
      exact h a (by simp) ⟨rfl, rfl⟩

theorem block_of (num : List Char → Option ℚ) (ec es : Option ℕ) (R : Line → Coef → Prop) (sc : Coef → Coef)
    (hsc : ∀ k, (sc k).l = k.l ∧ (sc k).m = k.m)
    (hR : ∀ line k t, R line k → k.l ≤ 6 → k.m ≤ 6 →
      coefLine num ec es t line = some (put t k.l k.m ((sc k).c, (sc k).s, (sc k).ec, (sc k).es)))
    (blk rest : List Line) (ks : List Coef) (hf : List.Forall₂ R blk ks) (hc : Complete ks) :
    ∃ F, block num ec es (blk ++ rest) = some F ∧ Field (ks.map sc) F := by
  obtain ⟨hlen, hrange, hpair⟩ := hc
  have hb : blk.length = 19 := by rw [hf.length_eq, hlen]
  have hfold : ∀ (blk : List Line) (ks : List Coef) (t : Tab), List.Forall₂ R blk ks →
      (∀ k ∈ ks, k.l ≤ 6 ∧ k.m ≤ 6) →
      blk.foldlM (coefLine num ec es) t =
        some ((ks.map sc).foldl (fun t k => put t k.l k.m (k.c, k.s, k.ec, k.es)) t) := by
    intro blk ks t hf
    induction hf generalizing t with
    | nil => intro _; rfl
    | @cons line k _ _ h1 _ ih =>
      intro hr
      have hk := hr k (by simp)
      rw [List.foldlM_cons, hR line k t h1 hk.1 hk.2]
      simp only [Option.bind_eq_bind, Option.bind_some]
      rw [ih _ fun k hk => hr k (by simp [hk]), List.map_cons, List.foldl_cons, (hsc k).1, (hsc k).2]
  refine ⟨(ks.map sc).foldl (fun t k => put t k.l k.m (k.c, k.s, k.ec, k.es)) fun _ _ => 0, ?_, ?_⟩
  · unfold block
    have hn : nHarm = 19 := rfl
    rw [if_neg (by simp [hn, hb]), hn, List.take_append_of_le_length (by omega), List.take_of_length_le (by omega),
      hfold blk ks _ hf hrange]
  · have hp : (ks.map sc).Pairwise fun a b => ¬ (a.l = b.l ∧ a.m = b.m) := by
      rw [List.pairwise_map]
      exact hpair.imp fun {a b} h => by rw [(hsc a).1, (hsc a).2, (hsc b).1, (hsc b).2]; exact h
    exact foldl_put (ks.map sc) hp _

/-- **C76** the mean field of the header -/
theorem block_mean (blk rest : List Line) (ks : List Coef) (hf : List.Forall₂ MeanLine blk ks) (hc : Complete ks) :
    ∃ F, block floatD (some 4) (some 5) (blk ++ rest) = some F ∧ Field ks F := by
  have := block_of floatD (some 4) (some 5) MeanLine id (fun _ => ⟨rfl, rfl⟩) (by
    rintro line k t ⟨w0, w1, w2, w3, w4, w5, r, hw, h0, h1, h2, h3, h4, h5⟩ hl hm
    unfold coefLine
    rw [split_words line _ hw]
    simp [pyInt_is _ _ h0, pyInt_is _ _ h1, floatD_is _ _ h2, floatD_is _ _ h3, floatD_is _ _ h4, floatD_is _ _ h5,
      idx7_nat _ hl, idx7_nat _ hm]) blk rest ks hf hc
  simpa using this

/-- coefficients and errors times the scale -/
def Coef.times (S : ℚ) (k : Coef) : Coef := ⟨k.l, k.m, k.c * S, k.s * S, k.ec * S, k.es * S⟩

theorem block_anomaly (S : ℚ) (blk rest : List Line) (ks : List Coef) (hf : List.Forall₂ AnomalyLine blk ks)
    (hc : Complete ks) :
    ∃ F, block (fun x => (pyFloat x).map (· * S)) (some 6) (some 7) (blk ++ rest) = some F ∧
      Field (ks.map (Coef.times S)) F := by
  refine block_of _ _ _ AnomalyLine (Coef.times S) (fun _ => ⟨rfl, rfl⟩) ?_ blk rest ks hf hc
  rintro line k t ⟨w0, w1, w2, w3, w4, w5, w6, w7, r, hw, h0, h1, h2, h3, h6, h7⟩ hl hm
  unfold coefLine
  rw [split_words line _ hw]
  simp [pyInt_is _ _ h0, pyInt_is _ _ h1, pyFloat_is _ _ h2, pyFloat_is _ _ h3, pyFloat_is _ _ h6, pyFloat_is _ _ h7,
    idx7_nat _ hl, idx7_nat _ hm, Coef.times]

theorem block_week (S : ℚ) (blk rest : List Line) (ks : List Coef) (hf : List.Forall₂ WeekLine blk ks)
    (hc : Complete ks) :
    ∃ F, block (fun x => (pyFloat x).map (· * S)) none none (blk ++ rest) = some F ∧
      Field (ks.map (Coef.times S)) F := by
  refine block_of _ _ _ WeekLine (Coef.times S) (fun _ => ⟨rfl, rfl⟩) ?_ blk rest ks hf hc
  rintro line k t ⟨w0, w1, w2, w3, r, hw, h0, h1, h2, h3, h4, h5⟩ hl hm
  unfold coefLine
  rw [split_words line _ hw]
  simp [pyInt_is _ _ h0, pyInt_is _ _ h1, pyFloat_is _ _ h2, pyFloat_is _ _ h3,
    idx7_nat _ hl, idx7_nat _ hm, Coef.times, h4, h5]

/-! ## Whole files -/

theorem blocks_spec (bs : List (List Line)) (hb : ∀ b ∈ bs, b.length = 20) (tail : List Line) (ht : tail.length < 20) :
    blocks (bs.flatten ++ tail) = bs := by
  have hn : nHarm + 1 = 20 := rfl
  have hlen : ∀ bs : List (List Line), (∀ b ∈ bs, b.length = 20) → bs.flatten.length = 20 * bs.length := by
    intro bs
    induction bs with
    | nil => intro _; rfl
    | cons b bs ih =>
      intro h
      rw [List.flatten_cons, List.length_append, h b (by simp), ih fun x hx => h x (by simp [hx]), List.length_cons]
      ring
  unfold blocks
  rw [hn, List.length_append, hlen bs hb]
  have : (20 * bs.length + tail.length) / 20 = bs.length := by omega
  rw [this]
  apply List.ext_getElem
  · simp
  · intro i h1 h2
    rw [List.getElem_map, List.getElem_range]
    have hi : i < bs.length := h2
    have hs : bs = bs.take i ++ bs[i] :: bs.drop (i + 1) := by
      rw [← List.drop_eq_getElem_cons hi, List.take_append_drop]
    have hflat : bs.flatten ++ tail = (bs.take i).flatten ++ (bs[i] ++ ((bs.drop (i + 1)).flatten ++ tail)) := by
      have h3 : bs.flatten = (bs.take i ++ bs[i] :: bs.drop (i + 1)).flatten := congrArg List.flatten hs
      rw [h3]
      simp only [List.flatten_append, List.flatten_cons, List.append_assoc]
    have hl1 : (bs.take i).flatten.length = i * 20 := by
      rw [hlen _ fun b hb' => hb b (List.mem_of_mem_take hb'), List.length_take, min_eq_left hi.le]; ring
    rw [hflat, List.drop_append_of_le_length (by rw [hl1]), List.drop_of_length_le (by rw [hl1]), List.nil_append,
      List.take_append_of_le_length (by rw [hb _ (List.getElem_mem hi)]),
      List.take_of_length_le (by rw [hb _ (List.getElem_mem hi)])]

/-- the date line of a month: number of the arc, two further words, year, month, first and last Modified Julian Day -/
def DateLine (line : Line) (arc y m : ℤ) (a b : ℚ) : Prop :=
  ∃ w0 w1 w2 w3 w4 w5 w6 r, Words line (w0 :: w1 :: w2 :: w3 :: w4 :: w5 :: w6 :: r) ∧
    IsInt w0 arc ∧ IsInt w3 y ∧ IsInt w4 m ∧ IsNum w5 a ∧ IsNum w6 b

/-- a month of the output: mid-point of the days, decimal year of the middle of the calendar month, mean field plus
scaled anomalies, errors added in quadrature -/
def MonthOf (SCALE : ℚ) (mean anomaly : Tab) (y m : ℤ) (a b : ℚ) (o : Month) : Prop :=
  o.MJD = (a + b) / 2 ∧
  o.time = y + ((dayNumber y m 1 - dayNumber y 1 1 : ℤ) + (monthLen y m : ℚ) / 2) / yearLen y ∧
  ∀ l n, o.c l n = (mean l n).1 + SCALE * (anomaly l n).1 ∧ o.s l n = (mean l n).2.1 + SCALE * (anomaly l n).2.1 ∧
    o.ec l n = Real.sqrt ((mean l n).2.2.1 ^ 2 + (SCALE * (anomaly l n).2.2.1) ^ 2) ∧
    o.es l n = Real.sqrt ((mean l n).2.2.2 ^ 2 + (SCALE * (anomaly l n).2.2.2) ^ 2)

/-- one month as written in the file -/
structure Entry where
  date : Line
  lines : List Line
  y : ℤ
  m : ℤ
  a : ℚ
  b : ℚ
  ks : List Coef

/-- the entry is well written, as number `n` of the file -/
def Entry.Ok (n : ℕ) (e : Entry) : Prop :=
  DateLine e.date n e.y e.m e.a e.b ∧ 1 ≤ e.m ∧ e.m ≤ 12 ∧ e.y % 4000 ≠ 0 ∧
    List.Forall₂ AnomalyLine e.lines e.ks ∧ Complete e.ks

theorem field_unique (ks : List Coef) (F G : Tab) (hF : Field ks F) (hG : Field ks G) : F = G := by
  funext l m
  by_cases h : ∀ k ∈ ks, ¬ (k.l = l ∧ k.m = m)
  · rw [hF.2 l m h, hG.2 l m h]
  · push Not at h
    obtain ⟨k, hk, rfl, rfl⟩ := h
    rw [hF.1 k hk, hG.1 k hk]

theorem field_times (S : ℚ) (ks : List Coef) (hc : Complete ks) (F : Tab) (hF : Field (ks.map (Coef.times S)) F) :
    ∃ A, Field ks A ∧ ∀ l m, F l m = ((A l m).1 * S, (A l m).2.1 * S, (A l m).2.2.1 * S, (A l m).2.2.2 * S) := by
  have hA : Field ks (ks.foldl (fun t k => put t k.l k.m (k.c, k.s, k.ec, k.es)) fun _ _ => 0) :=
    foldl_put ks hc.2.2 _
  generalize ks.foldl (fun t k => put t k.l k.m (k.c, k.s, k.ec, k.es)) (fun _ _ => 0) = A at hA
  refine ⟨A, hA, ?_⟩
  have : F = fun l m => ((A l m).1 * S, (A l m).2.1 * S, (A l m).2.2.1 * S, (A l m).2.2.2 * S) := by
    refine field_unique _ _ _ hF ⟨?_, ?_⟩
    · intro k' hk'
      obtain ⟨k, hk, rfl⟩ := List.mem_map.1 hk'
      have := hA.1 k hk
      simp only [Coef.times, this]
    · intro l m h
      have : A l m = 0 := hA.2 l m fun k hk => h (k.times S) (List.mem_map_of_mem hk)
      simp [this]
  intro l m
  rw [this]

theorem csrMonth_spec (S : ℚ) (mean : Tab) (n : ℕ) (e : Entry) (h : e.Ok (n + 1)) :
    ∃ o, csrMonth S mean n (e.date :: e.lines) = some o ∧
      ∃ A, Field e.ks A ∧ MonthOf S mean A e.y e.m e.a e.b o := by
  obtain ⟨⟨w0, w1, w2, w3, w4, w5, w6, r, hw, h0, h3, h4, h5, h6⟩, m1, m2, hy, hl, hc⟩ := h
  obtain ⟨F, hb, hF⟩ := block_anomaly S e.lines [] e.ks hl hc
  rw [List.append_nil] at hb
  obtain ⟨A, hA, hFA⟩ := field_times S e.ks hc F hF
  have hmjd : meanMJD (w0 :: w1 :: w2 :: w3 :: w4 :: w5 :: w6 :: r) = some ((e.a + e.b) / 2) := by
    unfold meanMJD
    simp [pyFloat_is _ _ h5, pyFloat_is _ _ h6]
  have ht := decimal_mid_month e.y e.m hy m1 m2
  refine ⟨{ MJD := (e.a + e.b) / 2
            time := e.y + ((dayNumber e.y e.m 1 - dayNumber e.y 1 1 : ℤ) + (monthLen e.y e.m : ℚ) / 2) / yearLen e.y
            c := fun l m => (F l m).1 + (mean l m).1
            s := fun l m => (F l m).2.1 + (mean l m).2.1
            ec := fun l m => Real.sqrt (((F l m).2.2.1 ^ 2 + (mean l m).2.2.1 ^ 2 : ℚ))
            es := fun l m => Real.sqrt (((F l m).2.2.2 ^ 2 + (mean l m).2.2.2 ^ 2 : ℚ)) }, ?_, A, hA, rfl, rfl, ?_⟩
  · unfold csrMonth
    simp only [List.getElem?_cons_zero, Option.map_some, split_words e.date _ hw, Option.bind_eq_bind, Option.bind_some,
      pyInt_is _ _ h0, hmjd, List.getElem?_cons_succ, pyInt_is _ _ h3, pyInt_is _ _ h4, ht, List.tail_cons, hb]
    simp
  · intro l n
    simp only [hFA l n]
    refine ⟨by ring, by ring, ?_, ?_⟩
    · congr 1; push_cast; ring
    · congr 1; push_cast; ring

theorem csrMonth_wrong_arc (S : ℚ) (mean : Tab) (n : ℕ) (l0 : Line) (ls : List Line) (arc y m : ℤ) (a b : ℚ)
    (h : DateLine l0 arc y m a b) (hne : arc ≠ n + 1) : csrMonth S mean n (l0 :: ls) = none := by
  obtain ⟨w0, w1, w2, w3, w4, w5, w6, r, hw, h0, h3, h4, h5, h6⟩ := h
  unfold csrMonth
  simp only [List.getElem?_cons_zero, Option.map_some, split_words l0 _ hw, Option.bind_eq_bind, Option.bind_some,
    pyInt_is _ _ h0, List.getElem?_cons_succ, pyInt_is _ _ h3, pyInt_is _ _ h4]
  have hmjd : meanMJD (w0 :: w1 :: w2 :: w3 :: w4 :: w5 :: w6 :: r) = some ((a + b) / 2) := by
    unfold meanMJD
    simp [pyFloat_is _ _ h5, pyFloat_is _ _ h6]
  rw [hmjd]
  simp only [Option.bind_some]
  cases convertCalendarDecimal y m with
  | none => rfl
  | some t =>
    simp only [Option.bind_some]
    cases block (fun x => (pyFloat x).map (· * S)) (some 6) (some 7) (l0 :: ls).tail with
    | none => rfl
    | some F => simp only [Option.bind_some]; rw [if_neg hne]

theorem meanStart_spec (pre post : List Line) (r : Line) (hr : rule r = true) (hp : ∀ l ∈ post, rule l = false) :
    meanStart (pre ++ r :: post) = some (pre.length + 1) := by
  unfold meanStart
  have hlen : (pre ++ r :: post).length = pre.length + 1 + post.length := by simp; omega
  have hsplit : List.range (pre ++ r :: post).length =
      List.range pre.length ++ pre.length :: (List.range post.length).map (fun i => pre.length + 1 + i) := by
    rw [hlen, List.range_add, List.range_succ]; simp
  rw [hsplit, List.filter_append, List.filter_cons_of_pos (by simp [hr])]
  have : ((List.range post.length).map (fun i => pre.length + 1 + i)).filter
      (fun i => rule ((pre ++ r :: post).getD i [])) = [] := by
    rw [List.filter_eq_nil_iff]
    intro i hi
    obtain ⟨k, hk, rfl⟩ := List.mem_map.1 hi
    rw [List.mem_range] at hk
    have e : (pre ++ r :: post).getD (pre.length + 1 + k) [] = post[k] := by
      rw [List.getD_eq_getElem?_getD, List.getElem?_append_right (by omega)]
      have : pre.length + 1 + k - pre.length = k + 1 := by omega
      rw [this, List.getElem?_cons_succ]
      simp [hk]
    rw [e, hp _ (List.getElem_mem hk)]
    simp
  rw [this]
  simp

theorem meanStart_none (ls : List Line) (h : ∀ l ∈ ls, rule l = false) : meanStart ls = none := by
  unfold meanStart
  have : (List.range ls.length).filter (fun i => rule (ls.getD i [])) = [] := by
    rw [List.filter_eq_nil_iff]
    intro i hi
    rw [List.mem_range] at hi
    have e : ls.getD i [] = ls[i] := by rw [List.getD_eq_getElem?_getD]; simp [hi]
    rw [e, h _ (List.getElem_mem hi)]
    simp
  rw [this]
  rfl

/-- **C76** the CSR file: a header with a ruled line (the last one counts), followed by the nineteen lines of the mean
field, up to the line `end of header`; months of twenty lines, numbered from 1; the lines of an incomplete last month
are ignored -/
theorem readMonthly_spec (SCALE : ℚ) (pre : List Line) (r : Line) (mean : List Line) (post : List Line) (e : Line)
    (es : List Entry) (tail : List Line) (mk : List Coef)
    (hpre : ∀ l ∈ pre ++ r :: mean ++ post, endHeader l = false) (he : endHeader e = true)
    (hr : rule r = true) (hpost : ∀ l ∈ mean ++ post ++ [e], rule l = false)
    (hmean : List.Forall₂ MeanLine mean mk) (hmk : Complete mk)
    (hes : ∀ (n : ℕ) (h : n < es.length), es[n].Ok (n + 1)) (ht : tail.length < 20) :
    ∃ M out, Field mk M ∧
      readMonthly SCALE true (pre ++ r :: mean ++ post ++ e :: ((es.map fun x => x.date :: x.lines).flatten ++ tail)) =
        some out ∧
      List.Forall₂ (fun x o => ∃ A, Field x.ks A ∧ MonthOf SCALE M A x.y x.m x.a x.b o) es out := by
  obtain ⟨M, hb, hM⟩ := block_mean mean (post ++ e :: ((es.map fun x => x.date :: x.lines).flatten ++ tail)) mk hmean hmk
  have hlen20 : ∀ b ∈ es.map (fun x => x.date :: x.lines), b.length = 20 := by
    intro b hb
    obtain ⟨x, hx, rfl⟩ := List.mem_map.1 hb
    obtain ⟨n, hn, rfl⟩ := List.getElem_of_mem hx
    obtain ⟨-, -, -, -, hl, hc⟩ := hes n hn
    rw [List.length_cons, hl.length_eq, hc.1]
  have hbody : ∃ out, ((es.map fun x => x.date :: x.lines).zipIdx).mapM (fun b => csrMonth SCALE M b.2 b.1) = some out ∧
      List.Forall₂ (fun x o => ∃ A, Field x.ks A ∧ MonthOf SCALE M A x.y x.m x.a x.b o) es out := by
    have gen : ∀ (es : List Entry) (k : ℕ), (∀ (n : ℕ) (h : n < es.length), es[n].Ok (k + n + 1)) →
        ∃ out, ((es.map fun x => x.date :: x.lines).zipIdx k).mapM (fun b => csrMonth SCALE M b.2 b.1) = some out ∧
        List.Forall₂ (fun x o => ∃ A, Field x.ks A ∧ MonthOf SCALE M A x.y x.m x.a x.b o) es out := by
      intro es
      induction es with
      | nil => intro k _; exact ⟨[], rfl, .nil⟩
      | cons x es ih =>
        intro k hk
        obtain ⟨o, ho, hA⟩ := csrMonth_spec SCALE M k x (hk 0 (Nat.succ_pos _))
        obtain ⟨out, h1, h2⟩ := ih (k + 1) (by
          intro n hn
          have := hk (n + 1) (by simpa using hn)
          rw [show k + 1 + n + 1 = k + (n + 1) + 1 by ring]
          simpa using this)
        exact ⟨o :: out, by simp [List.zipIdx_cons, ho, h1], .cons hA h2⟩
    exact gen es 0 (by simpa using hes)
  obtain ⟨out, ho1, ho2⟩ := hbody
  refine ⟨M, out, hM, ?_, ho2⟩
  unfold readMonthly
  rw [skipHeader_found endHeader _ e _ hpre he]
  simp only [Option.bind_eq_bind, Option.bind_some]
  set body := (es.map fun x => x.date :: x.lines).flatten ++ tail with hbd
  have htake : (pre ++ r :: mean ++ post ++ e :: body).take
      ((pre ++ r :: mean ++ post ++ e :: body).length - body.length) = pre ++ r :: (mean ++ post ++ [e]) := by
    have h1 : pre ++ r :: mean ++ post ++ e :: body = (pre ++ r :: (mean ++ post ++ [e])) ++ body := by simp
    rw [h1, List.length_append, Nat.add_sub_cancel, List.take_left']
    rfl
  rw [htake, meanStart_spec pre _ r hr hpost]
  simp only [Option.bind_some]
  have hdrop : (pre ++ r :: mean ++ post ++ e :: body).drop (pre.length + 1) = mean ++ (post ++ e :: body) := by
    have h1 : pre ++ r :: mean ++ post ++ e :: body = (pre ++ [r]) ++ (mean ++ (post ++ e :: body)) := by simp
    rw [h1, List.drop_left' (by simp)]
  rw [hdrop, hb]
  simp only [Option.bind_some]
  rw [hbd, blocks_spec _ hlen20 tail ht, ho1]

/-- **C76** a file without a ruled line in its header, or without header, is refused -/
theorem readMonthly_refused (SCALE : ℚ) (H : Bool) (ls body : List Line) (hb : skipHeader endHeader H ls = some body)
    (h : ∀ l ∈ ls.take (ls.length - body.length), rule l = false) : readMonthly SCALE H ls = none := by
  unfold readMonthly
  rw [hb]
  simp only [Option.bind_eq_bind, Option.bind_some]
  rw [meanStart_none _ h]
  rfl

theorem readMonthly_no_header (SCALE : ℚ) (ls : List Line) : readMonthly SCALE false ls = none :=
  readMonthly_refused SCALE false ls ls rfl (by simp)

/-- the date line of a week: Modified Julian Day and decimal year -/
def WeekDate (line : Line) (mjd t : ℚ) : Prop :=
  ∃ w0 w1 r, Words line (w0 :: w1 :: r) ∧ IsNum w0 mjd ∧ IsNum w1 t

/-- one week as written in the file -/
structure Week where
  date : Line
  lines : List Line
  mjd : ℚ
  t : ℚ
  ks : List Coef

/-- the week is well written -/
def Week.Ok (e : Week) : Prop := WeekDate e.date e.mjd e.t ∧ List.Forall₂ WeekLine e.lines e.ks ∧ Complete e.ks

theorem gsfcWeek_spec (S : ℚ) (e : Week) (h : e.Ok) :
    ∃ o, gsfcWeek S (e.date :: e.lines) = some o ∧ o.MJD = e.mjd ∧ o.time = e.t ∧
      ∃ A, Field e.ks A ∧ ∀ l m, o.c l m = S * (A l m).1 ∧ o.s l m = S * (A l m).2.1 := by
  obtain ⟨⟨w0, w1, r, hw, h0, h1⟩, hl, hc⟩ := h
  obtain ⟨F, hb, hF⟩ := block_week S e.lines [] e.ks hl hc
  rw [List.append_nil] at hb
  obtain ⟨A, hA, hFA⟩ := field_times S e.ks hc F hF
  refine ⟨⟨e.mjd, e.t, fun l m => (F l m).1, fun l m => (F l m).2.1, fun _ _ => 0, fun _ _ => 0⟩, ?_, rfl, rfl, A, hA,
    fun l m => by simp only [hFA l m]; constructor <;> ring⟩
  unfold gsfcWeek
  simp only [List.getElem?_cons_zero, Option.map_some, split_words e.date _ hw, Option.bind_eq_bind, Option.bind_some,
    pyFloat_is _ _ h0, List.getElem?_cons_succ, pyFloat_is _ _ h1, List.tail_cons, hb]

/-- **C76** the weekly GSFC file: everything after the line with `Product:`; weeks of twenty lines -/
theorem readWeekly_spec (SCALE : ℚ) (header : List Line) (p : Line) (es : List Week) (tail : List Line)
    (hh : ∀ l ∈ header, hasProduct l = false) (hp : hasProduct p = true) (hes : ∀ x ∈ es, x.Ok) (ht : tail.length < 20) :
    ∃ out, readWeekly SCALE true (header ++ p :: ((es.map fun x => x.date :: x.lines).flatten ++ tail)) = some out ∧
      List.Forall₂ (fun x o => o.MJD = x.mjd ∧ o.time = x.t ∧
        ∃ A, Field x.ks A ∧ ∀ l m, o.c l m = SCALE * (A l m).1 ∧ o.s l m = SCALE * (A l m).2.1) es out := by
  obtain ⟨out, h1, h2⟩ := mapM_forall₂ (fun x : Week => x.date :: x.lines) (gsfcWeek SCALE)
    (fun (x : Week) (o : Month) => o.MJD = x.mjd ∧ o.time = x.t ∧
        ∃ A, Field x.ks A ∧ ∀ l m, o.c l m = SCALE * (A l m).1 ∧ o.s l m = SCALE * (A l m).2.1) es
    fun x hx => gsfcWeek_spec SCALE x (hes x hx)
  refine ⟨out, ?_, h2⟩
  unfold readWeekly
  rw [skipHeader_found hasProduct header p _ hh hp]
  simp only [Option.bind_eq_bind, Option.bind_some]
  rw [blocks_spec _ _ tail ht, h1]
  intro b hb
  obtain ⟨x, hx, rfl⟩ := List.mem_map.1 hb
  obtain ⟨-, hl, hc⟩ := hes x hx
  rw [List.length_cons, hl.length_eq, hc.1]

theorem hasProduct_iff (l : Line) : hasProduct l = true ↔ ∃ a b, l = a ++ "Product:".toList ++ b := by
  unfold hasProduct
  rw [List.any_eq_true]
  constructor
  · rintro ⟨t, ht, h⟩
    obtain ⟨a, rfl⟩ := (List.mem_tails _ _).1 ht
    obtain ⟨b, rfl⟩ := List.isPrefixOf_iff_prefix.1 h
    exact ⟨a, b, by simp⟩
  · rintro ⟨a, b, rfl⟩
    exact ⟨"Product:".toList ++ b, by simp [List.mem_tails], List.isPrefixOf_iff_prefix.2 ⟨b, rfl⟩⟩

/-- **C76** which file is read how, and with which scale -/
theorem readHarmonics_kinds (f : File) :
    (Contains "gsfc_slr_5x5c61s61" f.name → readHarmonics f = readWeekly 1 true f.lines) ∧
    (¬ Contains "gsfc_slr_5x5c61s61" f.name → Contains "CSR_Monthly_5x5_Gravity_Harmonics" f.name →
      readHarmonics f = readMonthly (1 / 10 ^ 10) true f.lines) ∧
    (¬ Contains "gsfc_slr_5x5c61s61" f.name → ¬ Contains "CSR_Monthly_5x5_Gravity_Harmonics" f.name →
      readHarmonics f = none) := by
  simp only [← search_lits]
  unfold readHarmonics
  refine ⟨fun h => by rw [if_pos h], fun h1 h2 => ?_, fun h1 h2 => by rw [if_neg h1, if_neg h2]⟩
  rw [if_neg h1, if_pos h2]
  congr 1
  norm_num

/-- **C76** C30, C40 and C50 of the CSR harmonics: coefficient and error of order 0; the month is that of the day in
the middle; the weekly file, which has no errors, is refused -/
theorem zonal_monthly (argsort : List ℚ → List ℕ) (f : File) (mean : ℚ) (DATE : List ℚ) (i H : Bool) (l : ℕ)
    (o : Option (List Rec))
    (ho : (l = 3 ∧ kindC30 f.name = .monthly ∧ o = c30 f mean H) ∨
      (l = 4 ∧ kindC40 f.name = .monthly ∧ o = c40 argsort f mean DATE i) ∨
      (l = 5 ∧ kindC50 f.name = .monthly ∧ o = c50 argsort f mean DATE i H)) :
    (Contains "gsfc_slr_5x5c61s61" f.name → o = none) ∧
    (¬ Contains "gsfc_slr_5x5c61s61" f.name → readHarmonics f = none → o = none) ∧
    (¬ Contains "gsfc_slr_5x5c61s61" f.name → ∀ ms, readHarmonics f = some ms → ∃ rs, o = some rs ∧
      List.Forall₂ (fun (x : Month) (r : Rec) => r.time = x.time ∧ r.data = x.c l 0 ∧ r.error = x.ec l 0) ms rs ∧
      rs.map Rec.month = adjustMonths (ms.map fun x =>
        let d := convertJulian (x.MJD + 2400000.5)
        12 * (d.year - 2002) + d.month)) := by
  have key : o = (monthlyZonal f l).map finish := by
    rcases ho with ⟨rfl, hk, h⟩ | ⟨rfl, hk, h⟩ | ⟨rfl, hk, h⟩ <;> rw [h]
    · unfold c30; rw [hk]
    · unfold c40; rw [hk]
    · unfold c50; rw [hk]
  rw [key]
  simp only [← search_lits]
  unfold monthlyZonal
  refine ⟨fun h => by rw [if_pos h]; rfl, fun h hn => by rw [if_neg h, hn]; rfl, ?_⟩
  intro h ms hms
  rw [if_neg h, hms]
  refine ⟨_, rfl, ?_⟩
  have h0 : List.Forall₂ (fun (x : Month) (r : Rec) => r.time = x.time ∧ r.data = x.c l 0 ∧ r.error = x.ec l 0) ms
      (ms.map fun m =>
        let d := convertJulian (m.MJD + 2400000.5)
        (⟨m.time, calendarToGrace d.year d.month, m.c l 0, m.ec l 0⟩ : Rec)) := by
    rw [List.forall₂_map_right_iff]
    exact List.forall₂_same.2 fun x _ => ⟨rfl, rfl, rfl⟩
  obtain ⟨k1, k2, k3⟩ := finish_keep _ (fun a r g h => h) _ _ h0
  refine ⟨k1, ?_⟩
  rw [k2, List.map_map]
  congr 1
  apply List.map_congr_left
  intro x _
  exact calendarToGrace_int _ _

/-- **C76.** The table of a mean field begins after the last line of the header that starts with eighty `=` -/
theorem meanStart_rules (pre post : List Line) (x : Line) (hx : List.replicate 80 '=' <+: x)
    (hp : ∀ y ∈ post, ¬ List.replicate 80 '=' <+: y) :
    meanStart (pre ++ x :: post) = some (pre.length + 1) ∧ meanStart post = none := by
  have rule_iff : ∀ l : Line, rule l = true ↔ List.replicate 80 '=' <+: l := by
    intro l; unfold rule; exact List.isPrefixOf_iff_prefix
  constructor
  · unfold meanStart
    have : (List.range (pre ++ x :: post).length) =
        List.range (pre.length + 1) ++ (List.range post.length).map (pre.length + 1 + ·) := by
      rw [List.length_append, List.length_cons, show pre.length + (post.length + 1) = pre.length + 1 + post.length from by omega,
        List.range_add]
    rw [this, List.filter_append]
    have h2 : ((List.range post.length).map (pre.length + 1 + ·)).filter
        (fun i => rule ((pre ++ x :: post).getD i [])) = [] := by
      rw [List.filter_eq_nil_iff]
      intro i hi hr
      obtain ⟨j, hj, rfl⟩ := List.mem_map.mp hi
      rw [List.mem_range] at hj
      rw [rule_iff, List.getD_eq_getElem?_getD, List.getElem?_append_right (by omega),
        show pre.length + 1 + j - pre.length = j + 1 from by omega, List.getElem?_cons_succ, List.getElem?_eq_getElem hj] at hr
      exact hp _ (by simp) hr
    have h1 : rule ((pre ++ x :: post).getD pre.length []) = true := by
      rw [rule_iff, List.getD_eq_getElem?_getD, List.getElem?_append_right (le_refl _)]
      simpa using hx
    rw [h2, List.append_nil, List.range_succ, List.filter_append, List.filter_cons, if_pos h1]
    simp
  · unfold meanStart
    have : (List.range post.length).filter (fun i => rule (post.getD i [])) = [] := by
      rw [List.filter_eq_nil_iff]
      intro i hi hr
      rw [List.mem_range] at hi
      rw [rule_iff, List.getD_eq_getElem?_getD, List.getElem?_eq_getElem hi] at hr
      exact hp _ (by simp) hr
    rw [this]; rfl

example : meanStart ["a".toList, List.replicate 81 '=', "b".toList, List.replicate 79 '='] = some 2 := by decide

end Verif.SLR
