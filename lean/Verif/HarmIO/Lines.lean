import Verif.HarmIO.Model

/-!
# Lemmas: what is found on the written lines, and what is read from a file
-/
namespace Verif.HarmIO
open Verif.SLR Verif.GIA Verif.SpatialIO
open Verif.Time (calendarToGrace adjustMonths)
open Verif (lmPairs)

/-! ## characters -/

theorem fmtD_noD (w n : ℕ) : ∀ c ∈ fmtD w n, c ≠ 'D' := by
  unfold fmtD
  apply pad_noD
  intro c hc
  simp only [List.mem_map] at hc
  obtain ⟨d, _, rfl⟩ := hc
  exact dchar_noD d

theorem fmtEV_noD (w p : ℕ) (x : Option ℚ) : ∀ c ∈ fmtEV w p x, c ≠ 'D' := by
  cases x with
  | none =>
    apply pad_noD
    intro c hc
    simp at hc
    rcases hc with rfl | rfl | rfl | rfl <;> decide
  | some x =>
    unfold fmtEV fmtE
    apply pad_noD
    intro c hc
    simp only [List.mem_append, List.mem_map, List.mem_cons] at hc
    rcases hc with ((rfl | ⟨d, _, rfl⟩) | rfl | ⟨d, _, rfl⟩) | rfl | rfl | ⟨d, _, rfl⟩
    all_goals first | exact dchar_noD _ | decide | (split <;> decide)

/-! ## lines -/

/-- a field of a line: its text and the numbers found in it -/
def IsField (f : List Char × List Tok) : Prop :=
  (∀ c ∈ f.1, c ≠ 'D') ∧ ∀ cs ts, Stop cs → Num cs ts → Num (f.1 ++ cs) (f.2 ++ ts)

theorem num_fields (l : List (List Char × List Tok)) (h : ∀ f ∈ l, IsField f) :
    Num (joinFields (l.map Prod.fst)) (l.flatMap Prod.snd) := by
  induction l with
  | nil => exact Num.nil
  | cons f r ih =>
    cases r with
    | nil =>
      have := (h f (by simp)).2 [] [] (Or.inl rfl) Num.nil
      simpa [joinFields] using this
    | cons f' r =>
      have hs : Stop (' ' :: joinFields ((f' :: r).map Prod.fst)) := Or.inr ⟨' ', _, rfl, rfl⟩
      exact (h f (by simp)).2 _ _ hs (Num.blank ' ' rfl (ih fun f hf => h f (by simp [hf])))

theorem fields_nums (l : List (List Char × List Tok)) (h : ∀ f ∈ l, IsField f) :
    rxAll (dToE (joinFields (l.map Prod.fst))) = (l.flatMap Prod.snd).map Tok.chars := by
  rw [dToE_id]
  · exact rxAll_num _ _ (num_fields l h)
  · apply join_noD
    intro s hs
    rw [List.mem_map] at hs
    obtain ⟨f, hf, rfl⟩ := hs
    exact (h f hf).1

/-- the numbers of a coefficient: none for NaN -/
def toksE : Option ℚ → List Tok
  | some x => [.dec (litE 12 x)]
  | none => []

/-- the fields of a line -/
def lineFields (o : Field) (date : Option ℚ) (p : ℕ × ℕ) : List (List Char × List Tok) :=
  [(fmtD 5 p.1, [tokD p.1]), (fmtD 5 p.2, [tokD p.2]), (fmtEV 21 12 (o.clm p.1 p.2), toksE (o.clm p.1 p.2)),
    (fmtEV 21 12 (o.slm p.1 p.2), toksE (o.slm p.1 p.2))] ++
    match date with
    | some t => [(fmtF 10 4 t, [.dec (litOf 4 t)])]
    | none => []

theorem isField_D (w n : ℕ) : IsField (fmtD w n, [tokD n]) := ⟨fmtD_noD w n, fun cs ts hs hn => num_fmtD w n cs ts hs hn⟩

theorem isField_E (x : Option ℚ) : IsField (fmtEV 21 12 x, toksE x) := by
  refine ⟨fmtEV_noD 21 12 x, ?_⟩
  intro cs ts hs hn
  cases x with
  | some x => exact num_fmtE 21 12 x cs ts hs hn
  | none => exact num_nanE 21 12 cs ts hs hn

theorem isField_F (t : ℚ) : IsField (fmtF 10 4 t, [.dec (litOf 4 t)]) :=
  ⟨fmtF_noD 10 4 t, fun cs ts hs hn => num_fmtF 10 4 t cs ts hs hn⟩

theorem lineFields_ok (o : Field) (date : Option ℚ) (p : ℕ × ℕ) : ∀ f ∈ lineFields o date p, IsField f := by
  intro f hf
  unfold lineFields at hf
  cases date with
  | none =>
    simp at hf
    rcases hf with rfl | rfl | rfl | rfl
    · exact isField_D 5 _
    · exact isField_D 5 _
    · exact isField_E _
    · exact isField_E _
  | some t =>
    simp at hf
    rcases hf with rfl | rfl | rfl | rfl | rfl
    · exact isField_D 5 _
    · exact isField_D 5 _
    · exact isField_E _
    · exact isField_E _
    · exact isField_F t

/-- text of a line -/
def lineText (o : Field) (date : Option ℚ) (p : ℕ × ℕ) : List Char := joinFields ((lineFields o date p).map Prod.fst)

theorem writeLine_eq (o : Field) (p : ℕ × ℕ) (date : Bool) (t : Option ℚ) (h : if date then o.time = t ∧ t ≠ none else t = none) :
    writeLine o date p = .ok (lineText o t p) := by
  unfold writeLine lineText lineFields
  cases date with
  | false => simp at h; subst h; simp
  | true =>
    simp at h
    obtain ⟨h1, h2⟩ := h
    cases t with
    | none => exact absurd rfl h2
    | some t => rw [h1]; simp

theorem toAscii_eq (o : Field) (date : Bool) (t : Option ℚ) (h : if date then o.time = t ∧ t ≠ none else t = none) :
    toAscii o date = .ok ((lmPairs o.lmax o.mmax).map (lineText o t)) :=
  mapM_ok _ _ _ fun p _ => writeLine_eq o p date t h

theorem lineText_nums (o : Field) (t : Option ℚ) (p : ℕ × ℕ) :
    rxAll (dToE (lineText o t p)) = ((lineFields o t p).flatMap Prod.snd).map Tok.chars :=
  fields_nums _ (lineFields_ok o t p)

/-! ## reading -/

/-- the line is read as degree and order `p`, the coefficients and the date (if any) -/
def Reads (line : List Char) (p : ℕ × ℕ) (c s : ℚ) (d : Option ℚ) : Prop :=
  ∃ tl tm tc ts aux, unpack line = .ok (tl, tm, tc, ts, aux) ∧ pyInt tl = some (p.1 : ℤ) ∧ pyInt tm = some (p.2 : ℤ) ∧
    pyFloat tc = some c ∧ pyFloat ts = some s ∧
    match d with
    | some x => ∃ u r, aux = u :: r ∧ pyFloat u = some x
    | none => aux = []

theorem degreeOrder_reads (line : List Char) (p : ℕ × ℕ) (c s : ℚ) (d : Option ℚ) (h : Reads line p c s d) :
    degreeOrder line = .ok ((p.1 : ℤ), (p.2 : ℤ)) := by
  obtain ⟨tl, tm, tc, ts, aux, h1, i1, i2, _⟩ := h
  unfold degreeOrder
  simp only [h1, bind, Except.bind, i1, i2, orValue]
  rfl

theorem putLine_reads (line : List Char) (p : ℕ × ℕ) (c s : ℚ) (d : Option ℚ) (h : Reads line p c s d) (nl nm : ℕ)
    (hl : p.1 < nl) (hm : p.2 < nm) (a : (ℕ → ℕ → Option ℚ) × (ℕ → ℕ → Option ℚ)) :
    putLine nl nm a line = .ok (setCell a.1 p.1 p.2 (some c), setCell a.2 p.1 p.2 (some s)) := by
  obtain ⟨tl, tm, tc, ts, aux, h1, j1, j2, h2, h3, _⟩ := h
  unfold putLine putLine.index
  have i1 : pyIndex nl (p.1 : ℤ) = some p.1 := by unfold pyIndex; rw [if_pos (by omega)]; simp
  have i2 : pyIndex nm (p.2 : ℤ) = some p.2 := by unfold pyIndex; rw [if_pos (by omega)]; simp
  simp only [h1, bind, Except.bind, j1, j2, orValue, h2, h3, i1, i2]
  rfl

theorem maxOf_le (ls : List ℕ) (n : ℕ) (h : ∀ l ∈ ls, l ≤ n) : ∀ acc ≤ n,
    (ls.map fun l : ℕ => (l : ℤ)).foldl (fun (acc : ℕ) l => if l > (acc : ℤ) then l.toNat else acc) acc ≤ n := by
  induction ls with
  | nil => intro acc ha; exact ha
  | cons a t ih =>
    intro acc ha
    rw [List.map_cons, List.foldl_cons]
    refine ih (fun l hl => h l (by simp [hl])) _ ?_
    split
    · simpa using h a (by simp)
    · exact ha

theorem le_maxOf (ls : List ℕ) : ∀ acc : ℕ,
    acc ≤ (ls.map fun l : ℕ => (l : ℤ)).foldl (fun (acc : ℕ) l => if l > (acc : ℤ) then l.toNat else acc) acc ∧
    ∀ l ∈ ls, l ≤ (ls.map fun l : ℕ => (l : ℤ)).foldl (fun (acc : ℕ) l => if l > (acc : ℤ) then l.toNat else acc) acc := by
  induction ls with
  | nil => intro acc; simp
  | cons a t ih =>
    intro acc
    rw [List.map_cons, List.foldl_cons]
    obtain ⟨h1, h2⟩ := ih (if (a : ℤ) > (acc : ℤ) then (a : ℤ).toNat else acc)
    have hge : acc ≤ (if (a : ℤ) > (acc : ℤ) then (a : ℤ).toNat else acc) ∧
        a ≤ (if (a : ℤ) > (acc : ℤ) then (a : ℤ).toNat else acc) := by
      split <;> constructor <;> omega
    refine ⟨le_trans hge.1 h1, ?_⟩
    intro l hl
    rcases List.mem_cons.1 hl with rfl | hl
    · exact le_trans hge.2 h1
    · exact h2 l hl

theorem maxOf_eq (ls : List ℕ) (n : ℕ) (h : ∀ l ∈ ls, l ≤ n) (hn : n ∈ ls ∨ n = 0) : maxOf (ls.map fun l : ℕ => (l : ℤ)) = n := by
  have h1 := maxOf_le ls n h 0 (by omega)
  have h2 := (le_maxOf ls 0).2
  unfold maxOf
  rcases hn with hn | rfl
  · exact le_antisymm h1 (h2 n hn)
  · omega

theorem put_all (ps : List (ℕ × ℕ)) (txt : ℕ × ℕ → List Char) (C S : ℕ → ℕ → ℚ) (D : ℕ × ℕ → Option ℚ)
    (h : ∀ p ∈ ps, Reads (txt p) p (C p.1 p.2) (S p.1 p.2) (D p)) (nl nm : ℕ) (hb : ∀ p ∈ ps, p.1 < nl ∧ p.2 < nm)
    (a : (ℕ → ℕ → Option ℚ) × (ℕ → ℕ → Option ℚ)) :
    (ps.map txt).foldlM (putLine nl nm) a =
      .ok (fun l m => if (l, m) ∈ ps then some (C l m) else a.1 l m, fun l m => if (l, m) ∈ ps then some (S l m) else a.2 l m) := by
  induction ps generalizing a with
  | nil => simp; rfl
  | cons p t ih =>
    rw [List.map_cons, List.foldlM_cons, putLine_reads _ _ _ _ _ (h p (by simp)) nl nm (hb p (by simp)).1 (hb p (by simp)).2]
    simp only [bind, Except.bind]
    rw [ih (fun q hq => h q (by simp [hq])) (fun q hq => hb q (by simp [hq]))]
    congr 2 <;> funext l m <;> by_cases hm : (l, m) ∈ t <;> by_cases hp : (l, m) = p
    all_goals first
      | (subst hp; simp [hm, setCell])
      | (have h' : ¬ (l = p.1 ∧ m = p.2) := fun h => hp (Prod.ext h.1 h.2)
         simp [hm, hp, setCell, h'])

/-- a file whose lines are read as `C`, `S` at the pairs `ps` -/
theorem fromAscii_spec (date : Bool) (ps : List (ℕ × ℕ)) (txt : ℕ × ℕ → List Char) (C S : ℕ → ℕ → ℚ) (D : ℕ × ℕ → Option ℚ)
    (h : ∀ p ∈ ps, Reads (txt p) p (C p.1 p.2) (S p.1 p.2) (D p)) (lmax mmax : ℕ) (hb : ∀ p ∈ ps, p.1 ≤ lmax ∧ p.2 ≤ mmax)
    (hl : ∃ p ∈ ps, p.1 = lmax) (hm : ∃ p ∈ ps, p.2 = mmax) (q : ℕ × ℕ) (hq : ps.getLast? = some q) (t : ℚ)
    (hd : date = true → D q = some t) :
    ∃ o, fromAscii date (ps.map txt) = .ok o ∧ o.lmax = lmax ∧ o.mmax = mmax ∧
      (∀ l m, o.clm l m = if (l, m) ∈ ps then some (C l m) else some 0) ∧
      (∀ l m, o.slm l m = if (l, m) ∈ ps then some (S l m) else some 0) ∧
      (o.time = if date then some t else none) ∧ (o.month = if date then some (calendarToGrace t) else none) := by
  have h1 : (ps.map txt).mapM degreeOrder = .ok (ps.map fun p => ((p.1 : ℤ), (p.2 : ℤ))) := by
    clear hl hm hq hb
    induction ps with
    | nil => rfl
    | cons p r ih =>
      rw [List.map_cons, List.mapM_cons, degreeOrder_reads _ _ _ _ _ (h p (by simp)), ih fun q hq => h q (by simp [hq])]
      rfl
  have e1 : maxOf ((ps.map fun p => ((p.1 : ℤ), (p.2 : ℤ))).map Prod.fst) = lmax := by
    have : (ps.map fun p => ((p.1 : ℤ), (p.2 : ℤ))).map Prod.fst = (ps.map Prod.fst).map fun l : ℕ => (l : ℤ) := by simp
    rw [this]
    apply maxOf_eq
    · intro l hl'
      obtain ⟨p, hp, rfl⟩ := List.mem_map.1 hl'
      exact (hb p hp).1
    · obtain ⟨p, hp, e⟩ := hl
      left
      rw [← e]
      exact List.mem_map_of_mem hp
  have e2 : maxOf ((ps.map fun p => ((p.1 : ℤ), (p.2 : ℤ))).map Prod.snd) = mmax := by
    have : (ps.map fun p => ((p.1 : ℤ), (p.2 : ℤ))).map Prod.snd = (ps.map Prod.snd).map fun l : ℕ => (l : ℤ) := by simp
    rw [this]
    apply maxOf_eq
    · intro l hl'
      obtain ⟨p, hp, rfl⟩ := List.mem_map.1 hl'
      exact (hb p hp).2
    · obtain ⟨p, hp, e⟩ := hm
      left
      rw [← e]
      exact List.mem_map_of_mem hp
  have e3 : lastDate date (ps.map txt) = .ok (if date then some t else none) := by
    unfold lastDate
    cases date with
    | false => rfl
    | true =>
      have hqm : q ∈ ps := List.mem_of_getLast? hq
      obtain ⟨tl, tm, tc, ts, aux, u1, _, _, u2, u3, u4⟩ := h q hqm
      rw [hd rfl] at u4
      obtain ⟨u, r, rfl, u5⟩ := u4
      have : (ps.map txt).getLast? = some (txt q) := by rw [List.getLast?_map, hq]; rfl
      rw [if_pos rfl, this]
      simp only [u1, bind, Except.bind, u5, orValue]
      rfl
  have hadj : ∀ x : ℤ, (adjustMonths [x]).headD 0 = x := by
    intro x
    unfold adjustMonths
    simp
  unfold fromAscii
  simp only [h1, bind, Except.bind, e1, e2, e3]
  rw [put_all ps txt C S D h (lmax + 1) (mmax + 1) (fun p hp => by have := hb p hp; omega)]
  refine ⟨_, rfl, rfl, rfl, fun l m => rfl, fun l m => rfl, rfl, ?_⟩
  cases date with
  | false => rfl
  | true => simpa using hadj (calendarToGrace t)

/-- a line of numbers is read in order -/
theorem reads_toks (line : List Char) (p : ℕ × ℕ) (tl tm tc ts : Tok) (aux : List Tok)
    (h : rxAll (dToE line) = (tl :: tm :: tc :: ts :: aux).map Tok.chars) (hl : pyInt tl.chars = some (p.1 : ℤ))
    (hm : pyInt tm.chars = some (p.2 : ℤ)) : Reads line p tc.val ts.val (aux.head?.map Tok.val) := by
  refine ⟨tl.chars, tm.chars, tc.chars, ts.chars, aux.map Tok.chars, ?_, hl, hm, pyFloat_tok tc, pyFloat_tok ts, ?_⟩
  · unfold unpack
    rw [h]
    rfl
  · cases aux with
    | nil => rfl
    | cons u r => exact ⟨u.chars, r.map Tok.chars, rfl, pyFloat_tok u⟩

end Verif.HarmIO
