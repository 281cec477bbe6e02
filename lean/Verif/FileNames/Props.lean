import Mathlib.Data.List.Forall2
import Mathlib.Tactic.IntervalCases
import Verif.FileNames.Spec
/-!
# C110: files found without regard to case
-/
namespace Verif.FileNames

/-! ## The expression -/

theorem upper_iff (c : Char) : ('A' ≤ c ∧ c ≤ 'Z') ↔ ∃ k < 26, c = Char.ofNat (65 + k) := by
  constructor
  · rintro ⟨h1, h2⟩
    have a1 : 65 ≤ c.toNat := h1
    have a2 : c.toNat ≤ 90 := h2
    refine ⟨c.toNat - 65, by omega, ?_⟩
    rw [show 65 + (c.toNat - 65) = c.toNat by omega, Char.ofNat_toNat]
  · rintro ⟨k, hk, rfl⟩
    revert k; decide

theorem fold_upper (k : Nat) (hk : k < 26) : fold (Char.ofNat (65 + k)) = Char.ofNat (97 + k) := by
  revert k; decide

theorem fold_lower (k : Nat) (hk : k < 26) : fold (Char.ofNat (97 + k)) = Char.ofNat (97 + k) := by
  revert k; decide

theorem fold_eq_iff (a b : Char) : fold a = fold b ↔ SameLetter a b := by
  constructor
  · intro h
    by_cases ha : 'A' ≤ a ∧ a ≤ 'Z' <;> by_cases hb : 'A' ≤ b ∧ b ≤ 'Z'
    · obtain ⟨i, hi, rfl⟩ := (upper_iff a).1 ha
      obtain ⟨j, hj, rfl⟩ := (upper_iff b).1 hb
      rw [fold_upper i hi, fold_upper j hj] at h
      have : ∀ i < 26, ∀ j < 26, Char.ofNat (97 + i) = Char.ofNat (97 + j) → i = j := by decide
      rw [this i hi j hj h]; exact Or.inl rfl
    · obtain ⟨i, hi, rfl⟩ := (upper_iff a).1 ha
      rw [fold_upper i hi] at h
      unfold fold at h
      rw [if_neg hb] at h
      exact Or.inr ⟨i, hi, Or.inl ⟨rfl, h.symm⟩⟩
    · obtain ⟨j, hj, rfl⟩ := (upper_iff b).1 hb
      rw [fold_upper j hj] at h
      unfold fold at h
      rw [if_neg ha] at h
      exact Or.inr ⟨j, hj, Or.inr ⟨h, rfl⟩⟩
    · unfold fold at h
      rw [if_neg ha, if_neg hb] at h
      exact Or.inl h
  · rintro (rfl | ⟨k, hk, ⟨rfl, rfl⟩ | ⟨rfl, rfl⟩⟩)
    · rfl
    · rw [fold_upper k hk, fold_lower k hk]
    · rw [fold_upper k hk, fold_lower k hk]

theorem one_iff (p c : Char) :
    one p c = true ↔ (p = '.' ∧ c ≠ '\n') ∨ (p ≠ '.' ∧ SameLetter p c) := by
  unfold one
  by_cases h : p = '.'
  · simp [h]
  · simp [h, fold_eq_iff]

theorem matchPlain_iff (n g : Name) : matchPlain n g = true ↔ BeginsLike n g := by
  induction n generalizing g with
  | nil => simp [matchPlain, BeginsLike]
  | cons p ps ih =>
    cases g with
    | nil =>
      simp only [matchPlain, Bool.false_eq_true, false_iff]
      rintro ⟨a, b, h, hf⟩
      cases hf with
      | cons _ _ => simp at h
    | cons c cs =>
      simp only [matchPlain, Bool.and_eq_true, one_iff, ih]
      constructor
      · rintro ⟨h, a, b, rfl, hf⟩
        exact ⟨c :: a, b, rfl, List.Forall₂.cons h hf⟩
      · rintro ⟨a, b, h, hf⟩
        cases hf with
        | cons h1 h2 =>
          simp only [List.cons_append, List.cons.injEq] at h
          obtain ⟨rfl, rfl⟩ := h
          exact ⟨h1, _, _, rfl, h2⟩

theorem plain_iff (n : Name) : plain n = true ↔ Plain n := by
  simp only [plain, Plain, List.all_eq_true, Bool.and_eq_true, decide_eq_true_eq, special, Bool.not_eq_true',
    decide_eq_false_iff_not]
  rfl

theorem ascii_iff (n : Name) : ascii n = true ↔ Ascii n := by
  simp [ascii, Ascii]

theorem matching_plain (rx : Name → Name → Option Bool) (n : Name) (hn : Plain n) (fs : List Name)
    (hf : ∀ f ∈ fs, Ascii f) : matching rx n fs = .ok (fs.filter (matchPlain n)) := by
  induction fs with
  | nil => rfl
  | cons f fs ih =>
    have h1 : reMatch rx n f = some (matchPlain n f) := by
      unfold reMatch
      rw [(plain_iff n).2 hn, (ascii_iff f).2 (hf f (by simp))]; rfl
    simp only [matching, h1, ih (fun g hg => hf g (by simp [hg]))]
    cases hm : matchPlain n f <;> simp [hm] <;> rfl

theorem getLast_filter {α : Type} (p : α → Bool) (l : List α) (g : α) :
    (l.filter p).getLast? = some g ↔ ∃ a b, l = a ++ g :: b ∧ p g = true ∧ ∀ x ∈ b, p x = false := by
  induction l with
  | nil => simp
  | cons x xs ih =>
    by_cases hx : ∃ y ∈ xs, p y = true
    · have hne : xs.filter p ≠ [] := by
        obtain ⟨y, hy, hp⟩ := hx
        intro h
        have := List.mem_filter.2 ⟨hy, hp⟩
        rw [h] at this; simp at this
      have e : ((x :: xs).filter p).getLast? = (xs.filter p).getLast? := by
        cases hp : p x
        · simp [List.filter_cons, hp]
        · simp only [List.filter_cons, hp, if_true]
          obtain ⟨y, ys, hy⟩ := List.exists_cons_of_ne_nil hne
          rw [hy, List.getLast?_cons_cons]
      rw [e, ih]
      constructor
      · rintro ⟨a, b, rfl, h1, h2⟩
        exact ⟨x :: a, b, rfl, h1, h2⟩
      · rintro ⟨a, b, h, h1, h2⟩
        cases a with
        | nil =>
          simp only [List.nil_append, List.cons.injEq] at h
          obtain ⟨rfl, rfl⟩ := h
          obtain ⟨y, hy, hp⟩ := hx
          rw [h2 y hy] at hp; cases hp
        | cons a0 a =>
          simp only [List.cons_append, List.cons.injEq] at h
          obtain ⟨rfl, rfl⟩ := h
          exact ⟨a, b, rfl, h1, h2⟩
    · have hall : ∀ y ∈ xs, p y = false := by
        intro y hy
        cases hp : p y
        · rfl
        · exact absurd ⟨y, hy, hp⟩ hx
      have hnil : xs.filter p = [] := by
        rw [List.filter_eq_nil_iff]; intro y hy; simp [hall y hy]
      constructor
      · intro h
        cases hp : p x
        · simp [List.filter_cons, hp, hnil] at h
        · simp [List.filter_cons, hp, hnil] at h
          subst h
          exact ⟨[], xs, rfl, hp, hall⟩
      · rintro ⟨a, b, h, h1, h2⟩
        cases a with
        | nil =>
          simp only [List.nil_append, List.cons.injEq] at h
          obtain ⟨rfl, rfl⟩ := h
          simp [List.filter_cons, h1, hnil]
        | cons a0 a =>
          simp only [List.cons_append, List.cons.injEq] at h
          obtain ⟨rfl, rfl⟩ := h
          rw [hall g (by simp)] at h1; cases h1

section
variable {C : Type} (rx : Name → Name → Option Bool)

theorem search_some (es : List (Name × C)) (n : Name) (hn : Plain n)
    (hf : ∀ f ∈ entries es, Ascii f) (hm : n ∉ entries es) :
    search rx (some es) n =
      match ((entries es).filter (matchPlain n)).getLast? with
      | none => .error .notFound
      | some g => .ok g := by
  simp only [search, if_neg hm, matching_plain rx n hn _ hf]
  rfl

/-- **C110** A file that exists under the name given is the file that is used, whatever else is in the
directory and whatever characters the name has. -/
theorem search_exact (es : List (Name × C)) (n : Name) (h : n ∈ entries es) :
    search rx (some es) n = .ok n := by
  simp [search, h]

example : ("GSM-2_2002.GFC".toList) ∈ entries [("gsm-2_2002.gfc".toList, 1), ("GSM-2_2002.GFC".toList, 2)] := by
  decide

/-- **C110** The outcome of a search in full: the file itself, or, if there is none, the last entry of the
listing that begins with text like the name. -/
theorem search_iff (es : List (Name × C)) (n g : Name) (hn : Plain n)
    (hf : ∀ f ∈ entries es, Ascii f) :
    search rx (some es) n = .ok g ↔
      (n ∈ entries es ∧ g = n) ∨
      (n ∉ entries es ∧ ∃ a b, entries es = a ++ g :: b ∧ BeginsLike n g ∧ ∀ x ∈ b, ¬ BeginsLike n x) := by
  by_cases hm : n ∈ entries es
  · rw [search_exact rx es n hm]
    constructor
    · intro h; injection h with h; exact Or.inl ⟨hm, h.symm⟩
    · rintro (⟨_, rfl⟩ | ⟨h, _⟩)
      · rfl
      · exact absurd hm h
  · rw [search_some rx es n hn hf hm]
    have := getLast_filter (matchPlain n) (entries es) g
    constructor
    · intro h
      right
      refine ⟨hm, ?_⟩
      rcases hg : ((entries es).filter (matchPlain n)).getLast? with _ | g'
      · rw [hg] at h; cases h
      · rw [hg] at h
        injection h with h
        subst h
        obtain ⟨a, b, h1, h2, h3⟩ := this.1 hg
        exact ⟨a, b, h1, (matchPlain_iff _ _).1 h2, fun x hx hb => by
          have := (matchPlain_iff n x).2 hb
          rw [h3 x hx] at this; cases this⟩
    · rintro (⟨h, _⟩ | ⟨_, a, b, h1, h2, h3⟩)
      · exact absurd h hm
      · rw [this.2 ⟨a, b, h1, (matchPlain_iff _ _).2 h2, fun x hx => by
          cases hb : matchPlain n x
          · rfl
          · exact absurd ((matchPlain_iff n x).1 hb) (h3 x hx)⟩]

/-- **C110** FileNotFoundError exactly if no entry begins with text like the name (or there is no directory). -/
theorem search_none_iff (es : List (Name × C)) (n : Name) (hn : Plain n)
    (hf : ∀ f ∈ entries es, Ascii f) :
    search rx (some es) n = .error .notFound ↔ n ∉ entries es ∧ ∀ x ∈ entries es, ¬ BeginsLike n x := by
  by_cases hm : n ∈ entries es
  · rw [search_exact rx es n hm]
    constructor
    · intro h; cases h
    · intro h; exact absurd hm h.1
  · rw [search_some rx es n hn hf hm]
    constructor
    · intro h
      refine ⟨hm, fun x hx hb => ?_⟩
      rcases hg : ((entries es).filter (matchPlain n)).getLast? with _ | g'
      · rw [List.getLast?_eq_none_iff, List.filter_eq_nil_iff] at hg
        exact hg x hx ((matchPlain_iff n x).2 hb)
      · rw [hg] at h; cases h
    · rintro ⟨_, h⟩
      have : (entries es).filter (matchPlain n) = [] := by
        rw [List.filter_eq_nil_iff]
        intro x hx hb
        exact h x hx ((matchPlain_iff n x).1 hb)
      rw [this]; rfl

theorem search_noDir (n : Name) : search (C := C) rx none n = .error .notFound := rfl

theorem beginsLike_of_same (n g s : Name) (h : SameName n g) (hg : '\n' ∉ g) : BeginsLike n (g ++ s) := by
  refine ⟨g, s, rfl, ?_⟩
  induction h with
  | nil => exact List.Forall₂.nil
  | @cons a b l1 l2 hab ht ih =>
    refine List.Forall₂.cons ?_ (ih (by intro h; exact hg (by simp [h])))
    by_cases ha : a = '.'
    · left; exact ⟨ha, fun hb => hg (by simp [hb])⟩
    · right; exact ⟨ha, hab⟩

/-- **C110** A file whose name differs only in upper and lower case is found, if no other entry begins with
text like the name. -/
theorem search_case (es : List (Name × C)) (n g : Name) (hn : Plain n) (hf : ∀ f ∈ entries es, Ascii f)
    (hm : n ∉ entries es) (hg : g ∈ entries es) (hs : SameName n g) (hl : '\n' ∉ g)
    (hu : ∀ x ∈ entries es, BeginsLike n x → x = g) :
    search rx (some es) n = .ok g := by
  have hb := beginsLike_of_same n g [] hs hl
  rw [List.append_nil] at hb
  have hg' : g ∈ (entries es).filter (matchPlain n) :=
    List.mem_filter.2 ⟨hg, (matchPlain_iff n g).2 hb⟩
  rw [search_some rx es n hn hf hm]
  rcases h : ((entries es).filter (matchPlain n)).getLast? with _ | x
  · rw [List.getLast?_eq_none_iff] at h
    rw [h] at hg'; simp at hg'
  · have hx := List.mem_of_getLast? h
    rw [List.mem_filter] at hx
    rw [hu x hx.1 ((matchPlain_iff n x).1 hx.2)]

/-- **C110** Deviation: a missing file is replaced by *any* file with a longer name, e.g. a backup copy. -/
theorem search_longer (n s : Name) (c : C) (hn : Plain n) (hs : Ascii s) (h0 : s ≠ []) (hl : '\n' ∉ n) :
    search rx (some [(n ++ s, c)]) n = .ok (n ++ s) := by
  rw [search_iff rx _ n (n ++ s) hn]
  · right
    refine ⟨?_, [], [], rfl, ?_, by simp⟩
    · simp [entries, h0]
    · refine beginsLike_of_same n n s ?_ hl
      exact List.forall₂_same.2 fun _ _ => Or.inl rfl
  · intro f hf
    simp only [entries, List.map_cons, List.map_nil, List.mem_singleton] at hf
    subst hf
    intro c hc
    rcases List.mem_append.1 hc with h | h
    · exact (hn c h).1
    · exact hs c h

/-- **C110** Deviation: with two files that differ only in case from a missing one, the order of the listing
decides. -/
theorem search_order (n f g : Name) (c c' : C) (hn : Plain n) (hf : SameName n f) (hg : SameName n g)
    (af : Ascii f) (ag : Ascii g) (lf : '\n' ∉ f) (lg : '\n' ∉ g) (nf : n ≠ f) (ng : n ≠ g) :
    search rx (some [(f, c), (g, c')]) n = .ok g ∧ search rx (some [(g, c'), (f, c)]) n = .ok f := by
  have bf := beginsLike_of_same n f [] hf lf
  have bg := beginsLike_of_same n g [] hg lg
  rw [List.append_nil] at bf bg
  constructor
  · rw [search_iff rx _ n g hn (by
      intro x hx
      simp only [entries, List.map_cons, List.map_nil, List.mem_cons, List.not_mem_nil, or_false] at hx
      rcases hx with rfl | rfl
      · exact af
      · exact ag)]
    exact Or.inr ⟨by simp [entries, nf, ng], [f], [], rfl, bg, by simp⟩
  · rw [search_iff rx _ n f hn (by
      intro x hx
      simp only [entries, List.map_cons, List.map_nil, List.mem_cons, List.not_mem_nil, or_false] at hx
      rcases hx with rfl | rfl
      · exact ag
      · exact af)]
    exact Or.inr ⟨by simp [entries, nf, ng], [g], [], rfl, bf, by simp⟩

example : SameName "Geo.txt".toList "GEO.TXT".toList ∧ Plain "Geo.txt".toList ∧
    search (C := Nat) (fun _ _ => none) (some [("geo-txt".toList, 3)]) "Geo.txt".toList = .ok "geo-txt".toList := by
  refine ⟨?_, ?_, rfl⟩
  · have h := (fun a b : Char => (fold_eq_iff a b).1)
    refine List.Forall₂.cons (h _ _ rfl) (List.Forall₂.cons (h _ _ rfl) (List.Forall₂.cons (h _ _ rfl)
      (List.Forall₂.cons (h _ _ rfl) (List.Forall₂.cons (h _ _ rfl) (List.Forall₂.cons (h _ _ rfl)
      (List.Forall₂.cons (h _ _ rfl) List.Forall₂.nil))))))
  · exact (plain_iff _).1 rfl

/-- the hypotheses of `search_case` hold in a directory with two files -/
example : search (fun _ _ => none) (some [("geo.txt".toList, 1), ("other".toList, 2)]) "GEO.TXT".toList =
    .ok "geo.txt".toList := rfl

/-! ## from_file and to_file -/

variable {O : Type} (dec : List Char → C → Option O) (enc : List Char → O → C)

theorem search_mem (es : List (Name × C)) (n g : Name) (h : search rx (some es) n = .ok g) :
    g ∈ entries es := by
  unfold search at h
  by_cases hm : n ∈ entries es
  · simp only [if_pos hm] at h
    injection h with h; subst h; exact hm
  · simp only [if_neg hm] at h
    have key : ∀ fs r, matching rx n fs = .ok r → ∀ x ∈ r, x ∈ fs := by
      intro fs
      induction fs with
      | nil => intro r hr x hx; cases hr; exact hx
      | cons f fs ih =>
        intro r hr x hx
        simp only [matching] at hr
        rcases hq : reMatch rx n f with _ | b
        · rw [hq] at hr; cases hr
        · rw [hq] at hr
          simp only at hr
          rcases hk : matching rx n fs with e | r'
          · rw [hk] at hr; cases hr
          · rw [hk] at hr
            injection hr with hr
            subst hr
            cases b
            · exact List.mem_cons_of_mem _ (ih r' hk x hx)
            · rcases List.mem_cons.1 hx with rfl | hx
              · exact List.mem_cons_self
              · exact List.mem_cons_of_mem _ (ih r' hk x hx)
    rcases hk : matching rx n (entries es) with e | r
    · rw [hk] at h; cases h
    · rw [hk] at h
      replace h : (match r.getLast? with | none => Except.error Err.notFound | some g => .ok g) = .ok g := h
      rcases hl : r.getLast? with _ | x
      · rw [hl] at h; cases h
      · rw [hl] at h
        injection h with h; subst h
        exact key _ _ hk _ (List.mem_of_getLast? hl)

theorem contents_of_mem (es : List (Name × C)) (n : Name) (h : n ∈ entries es) :
    ∃ c, (n, c) ∈ es ∧ contents (some es) n = some c := by
  unfold contents
  rcases hf : es.find? (fun e => e.1 = n) with _ | ⟨m, c⟩
  · rw [List.find?_eq_none] at hf
    obtain ⟨e, he, rfl⟩ := List.mem_map.1 h
    exact absurd (by simp) (hf e he)
  · have h1 := List.find?_some hf
    have h2 := List.mem_of_find?_eq_some hf
    simp only [decide_eq_true_eq] at h1
    subst h1
    exact ⟨c, h2, by simp only [hf]; rfl⟩

/-- the formats with readers -/
def readable : List (List Char) := ["ascii".toList, "netCDF4".toList, "HDF5".toList]

/-- **C110** `from_file` with a format that has a reader is that reader on the same argument: the additional
search changes nothing. -/
theorem fromFile_reader (d : Dir C) (a : Arg C) (t : List Char) :
    (t ∈ readable ∨ t = "gfc".toList →
      harmonicsFromFile rx dec d a (some t) = (reader rx d (dec t) a).map some) ∧
    (t ∈ readable → spatialFromFile rx dec d a (some t) = (reader rx d (dec t) a).map some) := by
  have key : ∀ f : Except Err (Option O), (∀ e, filename rx d a = .error e → f = .error e) →
      (do let _ ← filename rx d a; f) = f := by
    intro f hf
    rcases h : filename rx d a with e | v
    · exact (hf e h).symm
    · rfl
  have err : ∀ (g : C → Option O) e, filename rx d a = .error e → (reader rx d g a).map some = .error e := by
    intro g e h
    unfold reader
    rw [h]; rfl
  constructor
  · intro ht
    unfold readable at ht
    simp only [List.mem_cons, List.not_mem_nil, or_false] at ht
    unfold harmonicsFromFile
    rcases ht with (rfl | rfl | rfl) | rfl <;> exact key _ (err _)
  · intro ht
    unfold readable at ht
    simp only [List.mem_cons, List.not_mem_nil, or_false] at ht
    unfold spatialFromFile
    rcases ht with rfl | rfl | rfl <;> exact key _ (err _)

/-- **C110** Reading by a name: what is read are the contents of the file that the search finds. -/
theorem reader_path (es : List (Name × C)) (n : Name) (g : C → Option O) :
    (∀ e, search rx (some es) n = .error e → reader rx (some es) g (.path n) = .error e) ∧
    (∀ f, search rx (some es) n = .ok f → ∃ c, (f, c) ∈ es ∧
      reader rx (some es) g (.path n) = match g c with | none => .error .reader | some o => .ok o) := by
  constructor
  · intro e h
    simp only [reader, filename, h]; rfl
  · intro f h
    obtain ⟨c, hc, h2⟩ := contents_of_mem es f (search_mem rx es n f h)
    refine ⟨c, hc, ?_⟩
    simp only [reader, filename, h, Except.map, bind, Except.bind, h2]
    rcases g c with _ | o <;> rfl

/-- **C110** Deviations: the documented format `SHM` never works, in any directory and with any name (TypeError,
or the error of the search); formats that are not known return None instead of failing. -/
theorem fromFile_other (d : Dir C) (a : Arg C) :
    (∀ v, harmonicsFromFile rx dec d a (some "SHM".toList) ≠ .ok v) ∧
    (∀ b, filename rx d a = .ok b →
      harmonicsFromFile rx dec d a (some "SHM".toList) = .error .typeError ∧
      harmonicsFromFile rx dec d a none = .ok none ∧ spatialFromFile rx dec d a none = .ok none ∧
      spatialFromFile rx dec d a (some "gfc".toList) = .ok none ∧
      ∀ t, t ∉ readable → t ≠ "gfc".toList → t ≠ "SHM".toList →
        harmonicsFromFile rx dec d a (some t) = .ok none) := by
  constructor
  · intro v h
    unfold harmonicsFromFile at h
    rcases hf : filename rx d a with e | b
    · rw [hf] at h; cases h
    · rw [hf] at h; cases h
  · intro b hb
    refine ⟨?_, ?_, ?_, ?_, ?_⟩
    · unfold harmonicsFromFile; rw [hb]; rfl
    · unfold harmonicsFromFile; rw [hb]; rfl
    · unfold spatialFromFile; rw [hb]; rfl
    · unfold spatialFromFile; rw [hb]; rfl
    · intro t ht h1 h2
      unfold readable at ht
      simp only [List.mem_cons, List.not_mem_nil, or_false, not_or] at ht
      unfold harmonicsFromFile
      rw [hb]
      show (if some t = some "ascii".toList then _ else _) = _
      rw [if_neg (by simpa using ht.1), if_neg (by simpa using ht.2.1), if_neg (by simpa using ht.2.2),
        if_neg (by simpa using h1), if_neg (by simpa using h2)]

theorem mem_put (k : Nat) (es : List (Name × C)) (n : Name) (c : C) :
    n ∈ entries (put k es n c) ∧ contents (some (put k es n c)) n = some c ∧
      ∀ m, m ≠ n → contents (some (put k es n c)) m = contents (some es) m := by
  unfold put
  by_cases h : n ∈ entries es
  · rw [if_pos h]
    have e1 : ∀ m, (es.map fun e => if e.1 = n then (n, c) else e).find? (fun e => e.1 = m) =
        (es.find? fun e => e.1 = m).map fun e => if e.1 = n then (n, c) else e := by
      intro m
      rw [List.find?_map]
      congr 2
      funext e
      by_cases he : e.1 = n
      · simp only [Function.comp, he, if_true]
      · simp only [Function.comp, he, if_false]
    obtain ⟨c0, hc0, h0⟩ := contents_of_mem es n h
    refine ⟨?_, ?_, ?_⟩
    · unfold entries
      rw [List.map_map]
      exact List.mem_map.2 ⟨(n, c0), hc0, by simp⟩
    · unfold contents at h0 ⊢
      simp only at h0 ⊢
      rw [e1]
      rcases hf : es.find? (fun e => e.1 = n) with _ | e
      · rw [hf] at h0; cases h0
      · have := List.find?_some hf
        simp only [decide_eq_true_eq] at this
        rw [hf]
        simp [this]
    · intro m hm
      unfold contents
      simp only
      rw [e1]
      rcases hf : es.find? (fun e => e.1 = m) with _ | e
      · rw [hf]; rfl
      · have := List.find?_some hf
        simp only [decide_eq_true_eq] at this
        rw [hf]
        simp [this, hm]
  · rw [if_neg h]
    have hn : ∀ e ∈ es, e.1 ≠ n := fun e he hh => h (List.mem_map.2 ⟨e, he, hh⟩)
    refine ⟨?_, ?_, ?_⟩
    · simp [entries]
    · unfold contents
      simp only
      rw [List.find?_append]
      have : (es.take k).find? (fun e => e.1 = n) = none := by
        rw [List.find?_eq_none]
        intro e he
        simpa using hn e (List.mem_of_mem_take he)
      rw [this]
      simp
    · intro m hm
      unfold contents
      simp only
      rw [List.find?_append, List.find?_cons_of_neg (by simpa using fun h : n = m => hm h.symm),
        ← List.find?_append, List.take_append_drop]

/-- **C110** What `to_file` wrote is what `from_file` reads back, under the same name, whatever other files
the directory holds and whether or not the name existed; no other file changes. -/
theorem toFile_fromFile (k : Nat) (es : List (Name × C)) (n : Name) (t : List Char) (o : O)
    (ht : t ∈ readable) (hd : dec t (enc t o) = some o) :
    ∃ es', toFile enc k (some es) n (some t) o = .ok (some es') ∧
      harmonicsFromFile rx dec (some es') (.path n) (some t) = .ok (some o) ∧
      spatialFromFile rx dec (some es') (.path n) (some t) = .ok (some o) ∧
      ∀ m, m ≠ n → contents (some es') m = contents (some es) m := by
  have hw : toFile enc k (some es) n (some t) o = .ok (some (put k es n (enc t o))) := by
    have h := ht
    unfold readable at h
    simp only [List.mem_cons, List.not_mem_nil, or_false] at h
    rcases h with rfl | rfl | rfl <;> rfl
  obtain ⟨h1, h2, h3⟩ := mem_put k es n (enc t o)
  refine ⟨_, hw, ?_, ?_, h3⟩
  · rw [(fromFile_reader rx dec _ _ t).1 (Or.inl ht)]
    simp only [reader, filename, search_exact rx _ n h1, Except.map, bind, Except.bind, h2, hd]
  · rw [(fromFile_reader rx dec _ _ t).2 ht]
    simp only [reader, filename, search_exact rx _ n h1, Except.map, bind, Except.bind, h2, hd]

example : "HDF5".toList ∈ readable ∧ (fun (_ : List Char) (x : Nat) => some x) "HDF5".toList
    ((fun (_ : List Char) (x : Nat) => x) "HDF5".toList 7) = some 7 := by decide

/-- **C110** Formats without a writer (the readable `gfc` among them) write nothing, silently. -/
theorem toFile_other (k : Nat) (d : Dir C) (n : Name) (o : O) (f : Option (List Char))
    (h : ∀ t ∈ readable, f ≠ some t) : toFile enc k d n f o = .ok d := by
  unfold toFile
  rw [if_neg (h _ (by simp [readable])), if_neg (h _ (by simp [readable])), if_neg (h _ (by simp [readable]))]

example : ∀ t ∈ readable, some "gfc".toList ≠ some t := by decide

/-- **C110** A deviation that matters: after `to_file` under a longer name, `from_file` under the shorter name
reads the wrong file although the right one never existed. -/
theorem fromFile_longer (n s : Name) (t : List Char) (o : O) (hn : Plain n) (hs : Ascii s) (h0 : s ≠ [])
    (hl : '\n' ∉ n) (ht : t ∈ readable) (hd : dec t (enc t o) = some o) (k : Nat) :
    ∃ es', toFile enc k (some []) (n ++ s) (some t) o = .ok (some es') ∧
      harmonicsFromFile rx dec (some es') (.path n) (some t) = .ok (some o) := by
  have hw : toFile enc k (some []) (n ++ s) (some t) o = .ok (some [(n ++ s, enc t o)]) := by
    have h := ht
    unfold readable at h
    simp only [List.mem_cons, List.not_mem_nil, or_false] at h
    have : put k ([] : List (Name × C)) (n ++ s) (enc t o) = [(n ++ s, enc t o)] := by
      simp [put, entries]
    rcases h with rfl | rfl | rfl <;> exact congrArg (fun z => Except.ok (some z)) this
  refine ⟨_, hw, ?_⟩
  rw [(fromFile_reader rx dec _ _ t).1 (Or.inl ht)]
  simp only [reader, filename, search_longer rx n s _ hn hs h0 hl, Except.map, bind, Except.bind]
  simp [contents, hd]

end

/-- a file object is taken as it is, whatever the directory has -/
theorem filename_object {C : Type} (rx : Name → Name → Option Bool) (d : Dir C) (c : C) :
    filename rx d (.object c) = .ok (.object c) ∧ filename rx d (.nothing) = .ok .nothing := ⟨rfl, rfl⟩

end Verif.FileNames
