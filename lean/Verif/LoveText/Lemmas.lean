import Verif.LoveText.Spec
import Verif.LoveNumbers.Props

namespace Verif.LoveText
open Verif.SLR Verif.LoveNumbers

theorem dToE_append (a b : List Char) : GIA.dToE (a ++ b) = GIA.dToE a ++ GIA.dToE b := by simp [GIA.dToE]

theorem space_noD (c : Char) (h : isSpace c = true) : (if c = 'D' then 'E' else c) = c := by
  rw [if_neg]; rintro rfl; exact absurd h (by decide)

theorem stop_dToE (cs : List Char) (h : Stop cs) : Stop (GIA.dToE cs) := by
  rcases h with rfl | ⟨c, r, rfl, hc⟩
  · exact Or.inl rfl
  · refine Or.inr ⟨c, GIA.dToE r, ?_, hc⟩
    simp only [GIA.dToE, List.map_cons, space_noD c hc]

theorem dchar_noD (d : Fin 10) : dchar d ≠ 'D' := by revert d; decide

theorem dchar_noE (d : Fin 10) : dchar d ≠ 'E' := by revert d; decide

/-- the letter `D` does not occur in numbers -/
theorem tok_noD (t : GIA.Tok) : ∀ c ∈ t.chars, c ≠ 'D' := by
  have hs : ∀ s : Sgn, ∀ c ∈ s.chars, c ≠ 'D' := by intro s c hc; cases s <;> simp [Sgn.chars] at hc <;> subst hc <;> decide
  have hd : ∀ ds : List (Fin 10), ∀ c ∈ ds.map dchar, c ≠ 'D' := by
    intro ds c hc; obtain ⟨d, _, rfl⟩ := List.mem_map.1 hc; exact dchar_noD d
  have he : ∀ ex, ∀ c ∈ exChars ex, c ≠ 'D' := by
    intro ex c hc
    cases ex with
    | none => simp [exChars] at hc
    | some e =>
      obtain ⟨cap, s, d, ds⟩ := e
      simp only [exChars, List.mem_cons, List.mem_append] at hc
      rcases hc with h | h | h
      · subst h; cases cap <;> decide
      · exact hs s c h
      · exact hd (d :: ds) c h
  intro c hc
  cases t with
  | dec x =>
    simp only [GIA.Tok.chars, Lit.chars, List.mem_append, List.mem_cons] at hc
    rcases hc with (((h | h) | h | h)) | h
    · exact hs _ c h
    · exact hd _ c h
    · subst h; decide
    · exact hd _ c h
    · exact he _ c h
  | int s d ds ex =>
    simp only [GIA.Tok.chars, intChars, List.mem_append] at hc
    rcases hc with (h | h) | h
    · exact hs s c h
    · exact hd (d :: ds) c h
    · exact he ex c h

theorem dToE_written (t : GIA.Tok) (w : List Char) (h : Written t w) : GIA.dToE w = t.chars := by
  have hn := tok_noD t
  rcases h with rfl | rfl
  · unfold GIA.dToE
    conv_rhs => rw [← List.map_id t.chars]
    exact List.map_congr_left fun c hc => by simp [hn c hc]
  · unfold GIA.dToE
    rw [List.map_map]
    conv_rhs => rw [← List.map_id t.chars]
    refine List.map_congr_left fun c hc => ?_
    have := hn c hc
    by_cases h : c = 'E'
    · simp [h]
    · simp [h, this]

theorem rxAt_tok (t : GIA.Tok) (cs : List Char) (h : Stop cs) : rxAt (t.chars ++ cs) = some (t.chars, cs) := by
  unfold rxAt; rw [GIA.rxAt_tok t cs h]

theorem rxAt_space (c : Char) (cs : List Char) (hc : isSpace c = true) : rxAt (c :: cs) = none := by
  have hf := space_facts c hc
  have h1 : GIA.rxAt (c :: cs) = none := by unfold GIA.rxAt; simp [optSign, hf]
  have hi : c ≠ 'i' := by rintro rfl; exact absurd hc (by decide)
  unfold rxAt
  rw [h1]
  simp [optSign, hf, hi]

theorem rxAt_inf (cs : List Char) (h : Stop cs) : rxAt ('i' :: 'n' :: 'f' :: cs) = some (['i', 'n', 'f'], cs) := by
  have h1 : GIA.rxAt ('i' :: 'n' :: 'f' :: cs) = none :=
    GIA.rxAt_none 'i' ['n', 'f'] cs (by decide) h
  have h2 := expo_chars none cs h
  simp only [exChars, List.nil_append] at h2
  unfold rxAt
  rw [h1]
  simp [optSign, h2]

theorem tok_ne_nil (t : GIA.Tok) : t.chars ≠ [] := by
  cases t with
  | dec x => simp [GIA.Tok.chars, Lit.chars]
  | int s d ds ex => simp [GIA.Tok.chars, intChars]

theorem findallN_line (cs : List Char) (es : List Entry) (h : Line cs es) :
    ∀ n, cs.length ≤ n → findallN n (GIA.dToE cs) = es.map Entry.chars := by
  induction h with
  | nil => intro n _; cases n <;> rfl
  | @blank cs es c hc _ ih =>
    intro n hn
    obtain ⟨k, rfl⟩ : ∃ k, n = k + 1 := ⟨n - 1, by simp at hn; omega⟩
    have : GIA.dToE (c :: cs) = c :: GIA.dToE cs := by simp only [GIA.dToE, List.map_cons, space_noD c hc]
    rw [this, findallN, rxAt_space c _ hc]
    exact ih k (by simpa using hn)
  | @num cs es t w hw hs _ ih =>
    intro n hn
    rw [List.length_append] at hn
    have hwl : w.length = t.chars.length := by rw [← dToE_written t w hw]; simp [GIA.dToE]
    rw [dToE_append, dToE_written t w hw]
    obtain ⟨c, r, hc⟩ := List.exists_cons_of_ne_nil (tok_ne_nil t)
    have hl : t.chars.length = r.length + 1 := by rw [hc]; rfl
    obtain ⟨k, rfl⟩ : ∃ k, n = k + 1 := ⟨n - 1, by omega⟩
    have e := rxAt_tok t (GIA.dToE cs) (stop_dToE cs hs)
    rw [hc, List.cons_append] at e ⊢
    rw [findallN, e]
    dsimp only
    rw [ih k (by omega), List.map_cons, Entry.chars, hc]
  | @inf cs es hs _ ih =>
    intro n hn
    obtain ⟨k, rfl⟩ : ∃ k, n = k + 1 := ⟨n - 1, by simp at hn; omega⟩
    have : GIA.dToE ('i' :: 'n' :: 'f' :: cs) = 'i' :: 'n' :: 'f' :: GIA.dToE cs := by simp [GIA.dToE]
    rw [this, findallN, rxAt_inf _ (stop_dToE cs hs)]
    dsimp only
    rw [ih k (by simp at hn; omega)]
    rfl

theorem column_entry (columns : List String) (es : List Entry) (name : String) (hm : name ∈ columns) (e : Entry)
    (h : es[columns.idxOf name]? = some e) : column columns (es.map Entry.chars) name = some e.chars := by
  unfold column
  rw [if_pos hm, List.getElem?_map, h]; rfl

theorem int_ne_inf (s : Sgn) (a : Fin 10) (as : List (Fin 10)) : (GIA.Tok.int s a as none).chars ≠ ['i', 'n', 'f'] := by
  intro h
  have : dchar a ∈ ['i', 'n', 'f'] := by
    rw [← h]; simp [GIA.Tok.chars, intChars]
  have key : ∀ a : Fin 10, dchar a ∉ ['i', 'n', 'f'] := by decide
  exact key a this

theorem degree_of (e : Entry) (d : ℕ) (h : IsDegree e d) : degree e.chars = some d := by
  rcases h with ⟨s, a, as, rfl, hv⟩ | ⟨rfl, rfl⟩
  · unfold degree
    rw [Entry.chars, if_neg (int_ne_inf s a as), GIA.pyInt_tok, hv]
    simp
  · rfl

/-- a line of the table is read as it says -/
theorem readLine_says (lmax : ℕ) (columns : List String) (s : ReadState × Option ℕ) (line : List Char) (d : ℕ) (t : Triple)
    (h : Says columns line d t) : readLine lmax columns s line = some (readStep lmax s.1 (d, t), some d) := by
  obtain ⟨es, e, a, b, c, hl, m0, m1, m2, m3, e0, hd, e1, e2, e3, rfl⟩ := h
  have hf : findall (GIA.dToE line) = es.map Entry.chars := by
    unfold findall; exact findallN_line line es hl _ (by simp [GIA.dToE])
  unfold readLine values
  simp only [hf, column_entry columns es _ m0 _ e0, column_entry columns es _ m1 _ e1, column_entry columns es _ m2 _ e2,
    column_entry columns es _ m3 _ e3, Option.bind_some, degree_of e d hd]
  simp only [Entry.chars, GIA.pyFloat_tok, Option.map_some]
  split
  · rfl
  · rename_i hgt; simp [readStep, hgt]

theorem readLines_says (lmax : ℕ) (columns : List String) (lines : List (List Char)) (rows : List (ℕ × Triple))
    (h : List.Forall₂ (fun line r => Says columns line r.1 r.2) lines rows) :
    ∀ s : ReadState × Option ℕ, readLines lmax columns s lines =
      some (rows.foldl (readStep lmax) s.1, (rows.getLast?.map Prod.fst).or s.2) := by
  induction h with
  | nil => intro s; simp [readLines]
  | @cons line r lines rows hr _ ih =>
    intro s
    rw [readLines, readLine_says lmax columns s line r.1 r.2 hr]
    simp only [ih, List.foldl_cons]
    congr 2
    cases rows with
    | nil => simp
    | cons x xs => simp [List.getLast?_cons]

theorem int_noE (s : Sgn) (a : Fin 10) (as : List (Fin 10)) :
    (GIA.Tok.int s a as none).chars.map (fun c => if c = 'E' then 'D' else c) = (GIA.Tok.int s a as none).chars := by
  conv_rhs => rw [← List.map_id (GIA.Tok.int s a as none).chars]
  refine List.map_congr_left fun c hc => ?_
  rw [if_neg]; · rfl
  simp only [GIA.Tok.chars, intChars, exChars, List.append_nil, List.mem_append] at hc
  rcases hc with h | h
  · cases s <;> simp [Sgn.chars] at h <;> subst h <;> decide
  · obtain ⟨d, _, rfl⟩ := List.mem_map.1 h; exact dchar_noE d

/-- the degree is found in the last line although `D` is not replaced there, if it comes first -/
theorem findall_first (cs : List Char) (es : List Entry) (h : Line cs es) (e : Entry) (d : ℕ) (hd : IsDegree e d)
    (he : es[0]? = some e) : ∀ n, cs.length ≤ n → (findallN n cs)[0]? = some e.chars := by
  induction h with
  | nil => simp at he
  | @blank cs es c hc _ ih =>
    intro n hn
    obtain ⟨k, rfl⟩ : ∃ k, n = k + 1 := ⟨n - 1, by simp at hn; omega⟩
    rw [findallN, rxAt_space c _ hc]
    exact ih he k (by simpa using hn)
  | @num cs es t w hw hs _ _ =>
    intro n hn
    simp at he
    subst he
    have hwt : w = t.chars := by
      rcases hd with ⟨s, a, as, h1, _⟩ | ⟨h1, _⟩
      · simp only [Entry.num.injEq] at h1
        subst h1
        rcases hw with h | h
        · exact h
        · rw [h, int_noE]
      · exact absurd h1 (by simp)
    subst hwt
    obtain ⟨c, r, hc⟩ := List.exists_cons_of_ne_nil (tok_ne_nil t)
    have hl : t.chars.length = r.length + 1 := by rw [hc]; rfl
    rw [List.length_append] at hn
    obtain ⟨k, rfl⟩ : ∃ k, n = k + 1 := ⟨n - 1, by omega⟩
    have e := rxAt_tok t cs hs
    rw [Entry.chars]
    rw [hc, List.cons_append] at e ⊢
    rw [findallN, e]
    rfl
  | @inf cs es hs _ _ =>
    intro n hn
    simp at he
    subst he
    obtain ⟨k, rfl⟩ : ∃ k, n = k + 1 := ⟨n - 1, by simp at hn; omega⟩
    rw [findallN, rxAt_inf _ hs]
    rfl

/-- degree found in the last line -/
theorem column_last (columns : List String) (line : List Char) (d : ℕ) (t : Triple) (h : Says columns line d t)
    (hfirst : columns.head? = some "l") : ∃ x, column columns (findall line) "l" = some x ∧ degree x = some d := by
  obtain ⟨es, e, a, b, c, hl, m0, _, _, _, e0, hd, _⟩ := h
  have hi : columns.idxOf "l" = 0 := by
    cases columns with
    | nil => simp at hfirst
    | cons x xs => simp at hfirst; subst hfirst; simp
  rw [hi] at e0
  refine ⟨e.chars, ?_, degree_of e d hd⟩
  unfold column
  rw [if_pos m0, hi]
  exact findall_first line es hl e d hd e0 _ le_rfl

/-! ## lines of the text -/

theorem splitAux_line (x : List Char) (hx : ∀ c ∈ x, isBreak c = false) (cur rest : List Char) :
    splitlinesAux cur (x ++ rest) = splitlinesAux (cur ++ x) rest := by
  induction x generalizing cur with
  | nil => simp
  | cons c t ih =>
    have hc : isBreak c = false := hx c (by simp)
    have hr : c ≠ '\r' := by rintro rfl; exact absurd hc (by decide)
    rw [List.cons_append, splitlinesAux]
    · simp only [hc]
      rw [if_neg (by simp), ih (fun a ha => hx a (by simp [ha]))]
      simp
    · intro cs h1; exact absurd h1 hr

theorem splitAux_newline (cur rest : List Char) : splitlinesAux cur ('\n' :: rest) = cur :: splitlinesAux [] rest := by
  rw [splitlinesAux]
  · simp [isBreak]
  · intro cs h; exact absurd h (by decide)

theorem splitAux_lines (lines : List (List Char)) (hx : ∀ x ∈ lines, ∀ c ∈ x, isBreak c = false) (rest : List Char) :
    splitlinesAux [] ((lines.map (· ++ ['\n'])).flatten ++ rest) = lines ++ splitlinesAux [] rest := by
  induction lines with
  | nil => simp
  | cons x xs ih =>
    rw [List.map_cons, List.flatten_cons, List.append_assoc, List.append_assoc, splitAux_line x (hx x (by simp)),
      List.nil_append, List.singleton_append, splitAux_newline, ih fun y hy => hx y (by simp [hy])]
    rfl

theorem splitlines_text (text : List Char) (lines : List (List Char)) (h : IsText text lines) : splitlines text = lines := by
  obtain ⟨hx, rfl | ⟨ini, last, rfl, hne, rfl⟩⟩ := h
  · have := splitAux_lines lines hx []
    rw [List.append_nil] at this
    unfold splitlines; rw [this]; simp [splitlinesAux]
  · unfold splitlines
    rw [splitAux_lines ini fun y hy => hx y (by simp [hy])]
    congr 1
    have := splitAux_line last (hx last (by simp)) [] []
    rw [List.append_nil, List.nil_append] at this
    rw [this, splitlinesAux, if_neg hne]

end Verif.LoveText
