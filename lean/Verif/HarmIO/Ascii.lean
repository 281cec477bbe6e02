import Verif.HarmIO.Lines

/-!
# C83: theorems on spherical harmonics in text files
-/
namespace Verif.HarmIO
open Verif.SLR Verif.GIA Verif.SpatialIO
open Verif.Time (calendarToGrace adjustMonths)
open Verif (lmPairs mem_lmPairs)

/-- the degrees and orders of an object -/
def InField (o : Field) (l m : ℕ) : Prop := m ≤ l ∧ l ≤ o.lmax ∧ m ≤ o.mmax

/-- no coefficient is NaN -/
def Finite (o : Field) : Prop := ∀ l m, InField o l m → o.clm l m ≠ none ∧ o.slm l m ≠ none

/-- the date that is written, if dates are wanted -/
def dateOf (o : Field) (date : Bool) : Option ℚ := if date then o.time else none

theorem dateOf_ok (o : Field) (date : Bool) (h : date = true → o.time ≠ none) :
    if date then o.time = dateOf o date ∧ dateOf o date ≠ none else dateOf o date = none := by
  cases date with
  | false => rfl
  | true => exact ⟨rfl, h rfl⟩

/-- the last line has the greatest degree and order -/
theorem lmPairs_last (lmax mmax : ℕ) (h : mmax ≤ lmax) : (lmPairs lmax mmax).getLast? = some (lmax, mmax) := by
  unfold lmPairs
  rw [List.range_succ, List.flatMap_append]
  rw [List.getLast?_append]
  have : ([mmax].flatMap fun m => (List.range' m (lmax + 1 - m)).map fun l => (l, m)).getLast? = some (lmax, mmax) := by
    simp only [List.flatMap_cons, List.flatMap_nil, List.append_nil, List.getLast?_map]
    rw [List.getLast?_range']
    rw [if_neg (by omega)]
    simp
    omega
  rw [this]
  rfl

theorem toksE_some (x : Option ℚ) (h : x ≠ none) : ∃ v, x = some v ∧ toksE x = [.dec (litE 12 v)] := by
  cases x with
  | none => exact absurd rfl h
  | some v => exact ⟨v, rfl, rfl⟩

/-- a line without NaN is read as its rounded coefficients -/
theorem reads_line (o : Field) (t : Option ℚ) (p : ℕ × ℕ) (c s : ℚ) (hc : o.clm p.1 p.2 = some c) (hs : o.slm p.1 p.2 = some s) :
    Reads (lineText o t p) p (roundSig 12 c) (roundSig 12 s) (t.map (roundTo 4)) := by
  have h := lineText_nums o t p
  unfold lineFields at h
  rw [hc, hs] at h
  cases t with
  | none =>
    exact reads_toks _ p (tokD p.1) (tokD p.2) (.dec (litE 12 c)) (.dec (litE 12 s)) [] (by rw [h]; rfl) (tokD_spec _).2
      (tokD_spec _).2
  | some t =>
    exact reads_toks _ p (tokD p.1) (tokD p.2) (.dec (litE 12 c)) (.dec (litE 12 s)) [.dec (litOf 4 t)] (by rw [h]; rfl)
      (tokD_spec _).2 (tokD_spec _).2

/-- the object that is read from a written file -/
theorem ascii_read (o : Field) (date : Bool) (hf : Finite o) (hm : o.mmax ≤ o.lmax) (hd : date = true → o.time ≠ none) :
    ∃ file o', toAscii o date = .ok file ∧ fromAscii date file = .ok o' ∧ o'.lmax = o.lmax ∧ o'.mmax = o.mmax ∧
      (∀ l m, InField o l m → o'.clm l m = (o.clm l m).map (roundSig 12) ∧ o'.slm l m = (o.slm l m).map (roundSig 12)) ∧
      (∀ l m, ¬ InField o l m → o'.clm l m = some 0 ∧ o'.slm l m = some 0) ∧
      (o'.time = (dateOf o date).map (roundTo 4)) ∧ (o'.month = o'.time.map fun t => calendarToGrace t) := by
  have hw := toAscii_eq o date (dateOf o date) (dateOf_ok o date hd)
  obtain ⟨o', r0, r1, r2, r3, r4, r5, r6⟩ := fromAscii_spec date (lmPairs o.lmax o.mmax) (lineText o (dateOf o date))
    (fun l m => roundSig 12 ((o.clm l m).getD 0)) (fun l m => roundSig 12 ((o.slm l m).getD 0))
    (fun _ => (dateOf o date).map (roundTo 4))
    (by
      rintro ⟨l, m⟩ hp
      obtain ⟨h1, h2⟩ := hf l m ((mem_lmPairs _ _ _ _).1 hp)
      obtain ⟨c, hc⟩ := Option.ne_none_iff_exists'.1 h1
      obtain ⟨s, hs⟩ := Option.ne_none_iff_exists'.1 h2
      have := reads_line o (dateOf o date) (l, m) c s hc hs
      simpa [hc, hs] using this)
    o.lmax o.mmax
    (by rintro ⟨l, m⟩ hp; have := (mem_lmPairs _ _ _ _).1 hp; exact ⟨this.2.1, this.2.2⟩)
    ⟨(o.lmax, 0), (mem_lmPairs _ _ _ _).2 ⟨by omega, le_rfl, by omega⟩, rfl⟩
    ⟨(o.lmax, o.mmax), (mem_lmPairs _ _ _ _).2 ⟨hm, le_rfl, le_rfl⟩, rfl⟩
    (o.lmax, o.mmax) (lmPairs_last _ _ hm) (roundTo 4 (o.time.getD 0))
    (by
      intro h
      obtain ⟨t, ht⟩ := Option.ne_none_iff_exists'.1 (hd h)
      simp [dateOf, h, ht])
  refine ⟨_, o', hw, r0, r1, r2, ?_, ?_, ?_, ?_⟩
  · intro l m hi
    obtain ⟨h1, h2⟩ := hf l m hi
    obtain ⟨c, hc⟩ := Option.ne_none_iff_exists'.1 h1
    obtain ⟨s, hs⟩ := Option.ne_none_iff_exists'.1 h2
    have hmem := (mem_lmPairs o.lmax o.mmax l m).2 hi
    rw [r3, r4, if_pos hmem, if_pos hmem, hc, hs]
    exact ⟨rfl, rfl⟩
  · intro l m hi
    have hmem : (l, m) ∉ lmPairs o.lmax o.mmax := fun h => hi ((mem_lmPairs _ _ _ _).1 h)
    rw [r3, r4, if_neg hmem, if_neg hmem]
    exact ⟨rfl, rfl⟩
  · rw [r5]
    cases date with
    | false => rfl
    | true =>
      obtain ⟨t, ht⟩ := Option.ne_none_iff_exists'.1 (hd rfl)
      simp [dateOf, ht]
  · rw [r5, r6]
    cases date <;> rfl

/-- an object written to a text file and read back has the same maximum degree and order, its coefficients rounded to
thirteen significant digits, zeros elsewhere, and its date rounded to four decimals -/
theorem ascii_round_trip (o : Field) (date : Bool) (hf : Finite o) (hm : o.mmax ≤ o.lmax) (hd : date = true → o.time ≠ none) :
    ∃ file o', toAscii o date = .ok file ∧ fromAscii date file = .ok o' ∧ o'.lmax = o.lmax ∧ o'.mmax = o.mmax ∧
      (∀ l m, InField o l m → ∃ c c' s s', o.clm l m = some c ∧ o'.clm l m = some c' ∧ o.slm l m = some s ∧
        o'.slm l m = some s' ∧ RoundedSig 12 c c' ∧ RoundedSig 12 s s' ∧ (Sig 12 c → c' = c) ∧ (Sig 12 s → s' = s)) ∧
      (∀ l m, ¬ InField o l m → o'.clm l m = some 0 ∧ o'.slm l m = some 0) ∧
      (date = false → o'.time = none) ∧
      (date = true → ∃ t t', o.time = some t ∧ o'.time = some t' ∧ Rounded 4 t t' ∧ (Dec 4 t → t' = t)) := by
  obtain ⟨file, o', h0, h1, h2, h3, h4, h5, h6, h7⟩ := ascii_read o date hf hm hd
  refine ⟨file, o', h0, h1, h2, h3, ?_, h5, ?_, ?_⟩
  · intro l m hi
    obtain ⟨k1, k2⟩ := h4 l m hi
    obtain ⟨c, hc⟩ := Option.ne_none_iff_exists'.1 (hf l m hi).1
    obtain ⟨s, hs⟩ := Option.ne_none_iff_exists'.1 (hf l m hi).2
    rw [hc] at k1
    rw [hs] at k2
    exact ⟨c, _, s, _, hc, k1, hs, k2, roundSig_rounded 12 c, roundSig_rounded 12 s, roundSig_sig 12 c, roundSig_sig 12 s⟩
  · intro h; rw [h6, h]; rfl
  · intro h
    obtain ⟨t, ht⟩ := Option.ne_none_iff_exists'.1 (hd h)
    refine ⟨t, roundTo 4 t, ht, ?_, roundTo_rounded 4 t, roundTo_dec 4 t⟩
    rw [h6, dateOf, if_pos h, ht]; rfl

theorem fmtF_stable (w p : ℕ) (x : ℚ) (h : 0 ≤ x) : fmtF w p (roundTo p x) = fmtF w p x := by
  have hp : (10 : ℚ) ^ p ≠ 0 := by positivity
  have hp' : (0 : ℚ) < 10 ^ p := by positivity
  have e := roundTo_eq p x
  have hn : 0 ≤ Verif.Time.npRound (|x| * 10 ^ p) := npRound_nonneg _ (by positivity)
  rw [if_neg (by linarith), one_mul] at e
  have h0 : 0 ≤ roundTo p x := by
    rw [e]
    have : (0 : ℚ) ≤ ((Verif.Time.npRound (|x| * 10 ^ p) : ℤ) : ℚ) := by exact_mod_cast hn
    positivity
  have hs : scaled p (roundTo p x) = scaled p x := by
    unfold scaled
    rw [abs_of_nonneg h0, e, div_mul_cancel₀ _ hp, Verif.Tools.npRound_int]
  unfold fmtF
  rw [hs, if_neg (by linarith), if_neg (by linarith)]

/-- writing the object that was read gives the same file again -/
theorem ascii_stable (o : Field) (date : Bool) (hf : Finite o) (hm : o.mmax ≤ o.lmax) (hd : date = true → o.time ≠ none)
    (ht : ∀ t, o.time = some t → 0 ≤ t) :
    ∃ file o', toAscii o date = .ok file ∧ fromAscii date file = .ok o' ∧ toAscii o' date = .ok file := by
  obtain ⟨file, o', h0, h1, h2, h3, h4, h5, h6, h7⟩ := ascii_read o date hf hm hd
  refine ⟨file, o', h0, h1, ?_⟩
  rw [← h0]
  unfold toAscii
  rw [h2, h3]
  have : ∀ p ∈ lmPairs o.lmax o.mmax, writeLine o' date p = writeLine o date p := by
    rintro ⟨l, m⟩ hp
    have hi : InField o l m := (mem_lmPairs _ _ _ _).1 hp
    obtain ⟨k1, k2⟩ := h4 l m hi
    obtain ⟨c, hc⟩ := Option.ne_none_iff_exists'.1 (hf l m hi).1
    obtain ⟨s, hs⟩ := Option.ne_none_iff_exists'.1 (hf l m hi).2
    have e1 : fmtEV 21 12 (o'.clm l m) = fmtEV 21 12 (o.clm l m) := by
      rw [k1, hc]; exact fmtE_stable 21 12 c
    have e2 : fmtEV 21 12 (o'.slm l m) = fmtEV 21 12 (o.slm l m) := by
      rw [k2, hs]; exact fmtE_stable 21 12 s
    unfold writeLine
    simp only [e1, e2]
    cases date with
    | false => rfl
    | true =>
      obtain ⟨t, htt⟩ := Option.ne_none_iff_exists'.1 (hd rfl)
      have : o'.time = some (roundTo 4 t) := by rw [h6, dateOf, if_pos rfl, htt]; rfl
      simp only [this, htt, fmtF_stable 10 4 t (ht t htt)]
  have gen : ∀ ps : List (ℕ × ℕ), (∀ p ∈ ps, writeLine o' date p = writeLine o date p) →
      ps.mapM (writeLine o' date) = ps.mapM (writeLine o date) := by
    intro ps hps
    induction ps with
    | nil => rfl
    | cons p r ih => rw [List.mapM_cons, List.mapM_cons, hps p (by simp), ih fun q hq => hps q (by simp [hq])]
  exact gen _ this

/-- the month that is read is the month of the written date, whatever the month of the object was -/
theorem ascii_month (o : Field) (hf : Finite o) (hm : o.mmax ≤ o.lmax) (t : ℚ) (ht : o.time = some t) :
    ∃ file o', toAscii o true = .ok file ∧ fromAscii true file = .ok o' ∧
      o'.month = some (calendarToGrace (roundTo 4 t)) ∧
      ((∃ g : ℤ, (g : ℚ) + 6 / 10000 ≤ 12 * (t - 2002) ∧ 12 * (t - 2002) < (g : ℚ) + 1 - 6 / 10000) →
        o'.month = some (calendarToGrace t)) := by
  obtain ⟨file, o', h0, h1, h2, h3, h4, h5, h6, h7⟩ := ascii_read o true hf hm (fun _ => by rw [ht]; simp)
  have e : o'.time = some (roundTo 4 t) := by rw [h6, dateOf, if_pos rfl, ht]; rfl
  refine ⟨file, o', h0, h1, by rw [h7, e]; rfl, ?_⟩
  rintro ⟨g, g1, g2⟩
  rw [h7, e]
  simp only [Option.map_some, Option.some.injEq]
  have hr := (roundTo_rounded 4 t).2
  rw [abs_le] at hr
  unfold calendarToGrace
  have f1 : ⌊12 * (t - 2002)⌋ = g := Int.floor_eq_iff.2 ⟨by linarith, by linarith⟩
  have f2 : ⌊12 * (roundTo 4 t - 2002)⌋ = g := by
    norm_num at hr
    exact Int.floor_eq_iff.2 ⟨by linarith, by linarith⟩
  rw [f1, f2]

/-- a cosine coefficient that is NaN takes the sine coefficient of its line, and the sine coefficient becomes the date -/
theorem ascii_nan (o : Field) (a b : ℕ) (hi : InField o a b) (hl : (a, b) ≠ (o.lmax, o.mmax)) (hn : o.clm a b = none)
    (hf : ∀ l m, InField o l m → (l, m) ≠ (a, b) → o.clm l m ≠ none ∧ o.slm l m ≠ none) (s : ℚ) (hs : o.slm a b = some s)
    (hm : o.mmax ≤ o.lmax) (t : ℚ) (ht : o.time = some t) :
    ∃ file o', toAscii o true = .ok file ∧ fromAscii true file = .ok o' ∧ o'.clm a b = some (roundSig 12 s) ∧
      o'.slm a b = some (roundTo 4 t) := by
  have hw := toAscii_eq o true (some t) ⟨ht, by simp⟩
  obtain ⟨o', r0, r1, r2, r3, r4, r5, r6⟩ := fromAscii_spec true (lmPairs o.lmax o.mmax) (lineText o (some t))
    (fun l m => if (l, m) = (a, b) then roundSig 12 s else roundSig 12 ((o.clm l m).getD 0))
    (fun l m => if (l, m) = (a, b) then roundTo 4 t else roundSig 12 ((o.slm l m).getD 0))
    (fun p => if p = (a, b) then none else some (roundTo 4 t))
    (by
      rintro ⟨l, m⟩ hp
      by_cases hab : (l, m) = (a, b)
      · obtain ⟨rfl, rfl⟩ := Prod.mk.injEq _ _ _ _ ▸ hab
        have h := lineText_nums o (some t) (l, m)
        unfold lineFields at h
        rw [hn, hs] at h
        simp only [if_true]
        exact reads_toks _ (l, m) (tokD l) (tokD m) (.dec (litE 12 s)) (.dec (litOf 4 t)) [] (by rw [h]; rfl)
          (tokD_spec _).2 (tokD_spec _).2
      · obtain ⟨h1, h2⟩ := hf l m ((mem_lmPairs _ _ _ _).1 hp) hab
        obtain ⟨c, hc⟩ := Option.ne_none_iff_exists'.1 h1
        obtain ⟨s, hs⟩ := Option.ne_none_iff_exists'.1 h2
        have := reads_line o (some t) (l, m) c s hc hs
        simp only [if_neg hab, hc, hs, Option.getD_some]
        exact this)
    o.lmax o.mmax
    (by rintro ⟨l, m⟩ hp; have := (mem_lmPairs _ _ _ _).1 hp; exact ⟨this.2.1, this.2.2⟩)
    ⟨(o.lmax, 0), (mem_lmPairs _ _ _ _).2 ⟨by omega, le_rfl, by omega⟩, rfl⟩
    ⟨(o.lmax, o.mmax), (mem_lmPairs _ _ _ _).2 ⟨hm, le_rfl, le_rfl⟩, rfl⟩
    (o.lmax, o.mmax) (lmPairs_last _ _ hm) (roundTo 4 t)
    (by intro _; rw [if_neg (Ne.symm hl)])
  have hmem := (mem_lmPairs o.lmax o.mmax a b).2 hi
  refine ⟨_, o', hw, r0, ?_, ?_⟩
  · rw [r3, if_pos hmem, if_pos rfl]
  · rw [r4, if_pos hmem, if_pos rfl]

/-- without dates a file with a NaN cannot be read -/
theorem ascii_nan_fails (o : Field) (a b : ℕ) (hi : InField o a b) (hn : o.clm a b = none ∨ o.slm a b = none) :
    ∃ file, toAscii o false = .ok file ∧ ∀ o', fromAscii false file ≠ .ok o' := by
  have hw := toAscii_eq o false none rfl
  refine ⟨_, hw, ?_⟩
  intro o' hr
  have hu : unpack (lineText o none (a, b)) = .error .valueError := by
    have h := lineText_nums o none (a, b)
    unfold lineFields at h
    unfold unpack
    rw [h]
    simp only
    rcases hn with hn | hn <;> rw [hn]
    · cases o.slm a b <;> rfl
    · cases o.clm a b <;> rfl
  have hd : degreeOrder (lineText o none (a, b)) = .error .valueError := by
    unfold degreeOrder
    rw [hu]
    rfl
  have key : ∀ ps : List (List Char), lineText o none (a, b) ∈ ps → ∀ r, ps.mapM degreeOrder ≠ .ok r := by
    intro ps
    induction ps with
    | nil => intro h; simp at h
    | cons x t ih =>
      intro hx r hr
      rw [List.mapM_cons] at hr
      rcases List.mem_cons.1 hx with rfl | hx
      · rw [hd] at hr; simp [bind, Except.bind] at hr
      · simp only [bind, Except.bind] at hr
        split at hr
        · simp at hr
        · split at hr
          · simp at hr
          · rename_i v hv
            exact ih hx v hv
  unfold fromAscii at hr
  simp only [bind, Except.bind] at hr
  split at hr
  · simp at hr
  · rename_i v hv
    exact key _ (List.mem_map_of_mem ((mem_lmPairs o.lmax o.mmax a b).2 hi)) v hv

/-- any file of lines `degree order cosine sine [date]` is read: the coefficients of each line are found at its degree and
order, zero elsewhere, and the date is that of the last line; degrees and orders may come in any order -/
theorem ascii_any_file (date : Bool) (rows : List ((ℕ × ℕ) × ℚ × ℚ)) (file : List (List Char)) (t : ℚ)
    (hnd : (rows.map Prod.fst).Nodup) (hne : rows ≠ [])
    (h : List.Forall₂ (fun line r => ∃ (tl tm tc ts : Tok) (aux : List Tok), Num (dToE line) (tl :: tm :: tc :: ts :: aux) ∧
      pyInt tl.chars = some (r.1.1 : ℤ) ∧ pyInt tm.chars = some (r.1.2 : ℤ) ∧ tc.val = r.2.1 ∧ ts.val = r.2.2 ∧
      (date = true → aux.head?.map Tok.val = some t)) file rows) :
    ∃ o, fromAscii date file = .ok o ∧ (∀ r ∈ rows, o.clm r.1.1 r.1.2 = some r.2.1 ∧ o.slm r.1.1 r.1.2 = some r.2.2) ∧
      (∀ l m, (∀ r ∈ rows, r.1 ≠ (l, m)) → o.clm l m = some 0 ∧ o.slm l m = some 0) ∧
      (∀ r ∈ rows, r.1.1 ≤ o.lmax ∧ r.1.2 ≤ o.mmax) ∧ (∃ r ∈ rows, r.1.1 = o.lmax) ∧ (∃ r ∈ rows, r.1.2 = o.mmax) ∧
      (o.time = if date then some t else none) := by
  -- the text, the coefficients and the dates as functions of degree and order
  have hex : ∀ (rows : List ((ℕ × ℕ) × ℚ × ℚ)) (file : List (List Char)), (rows.map Prod.fst).Nodup →
      List.Forall₂ (fun line r => ∃ d : Option ℚ, Reads line r.1 r.2.1 r.2.2 d ∧ (date = true → d = some t)) file rows →
      ∃ (txt : ℕ × ℕ → List Char) (C S : ℕ → ℕ → ℚ) (D : ℕ × ℕ → Option ℚ), file = (rows.map Prod.fst).map txt ∧
        (∀ r ∈ rows, Reads (txt r.1) r.1 (C r.1.1 r.1.2) (S r.1.1 r.1.2) (D r.1) ∧ C r.1.1 r.1.2 = r.2.1 ∧
          S r.1.1 r.1.2 = r.2.2 ∧ (date = true → D r.1 = some t)) := by
    intro rows
    induction rows with
    | nil =>
      intro file _ hf
      cases hf
      exact ⟨fun _ => [], fun _ _ => 0, fun _ _ => 0, fun _ => none, rfl, by simp⟩
    | cons r rest ih =>
      intro file hnd hf
      cases hf with
      | @cons line _ file' _ hr hrest =>
        obtain ⟨d, hd1, hd2⟩ := hr
        rw [List.map_cons, List.nodup_cons] at hnd
        obtain ⟨txt, C, S, D, e1, e2⟩ := ih file' hnd.2 hrest
        have hother : ∀ q ∈ rest, q.1 ≠ r.1 := fun q hq h => hnd.1 (h ▸ List.mem_map_of_mem hq)
        refine ⟨fun p => if p = r.1 then line else txt p, fun l m => if (l, m) = r.1 then r.2.1 else C l m,
          fun l m => if (l, m) = r.1 then r.2.2 else S l m, fun p => if p = r.1 then d else D p, ?_, ?_⟩
        · rw [List.map_cons, List.map_cons, if_pos rfl, e1]
          congr 1
          simp only [List.map_map]
          apply List.map_congr_left
          intro q hq
          simp [hother q hq]
        · intro q hq
          rcases List.mem_cons.1 hq with rfl | hq
          · simp only [Prod.mk.eta, if_true]
            exact ⟨hd1, trivial, trivial, hd2⟩
          · have := hother q hq
            simp only [Prod.mk.eta, if_neg this]
            exact e2 q hq
  obtain ⟨txt, C, S, D, e1, e2⟩ := hex rows file hnd (by
    refine h.imp ?_
    rintro line r ⟨tl, tm, tc, ts, aux, h1, h2, h3, h4, h5, h6⟩
    refine ⟨aux.head?.map Tok.val, ?_, h6⟩
    rw [← h4, ← h5]
    exact reads_toks line r.1 tl tm tc ts aux (rxAll_num _ _ h1) h2 h3)
  have hmax : ∀ (f : (ℕ × ℕ) × ℚ × ℚ → ℕ) (rs : List ((ℕ × ℕ) × ℚ × ℚ)), rs ≠ [] → ∃ r ∈ rs, ∀ q ∈ rs, f q ≤ f r := by
    intro f rs
    induction rs with
    | nil => intro h; exact absurd rfl h
    | cons a t ih =>
      intro _
      by_cases ht : t = []
      · subst ht; exact ⟨a, by simp, by simp⟩
      · obtain ⟨r, hr, hq⟩ := ih ht
        by_cases hle : f a ≤ f r
        · exact ⟨r, by simp [hr], by intro q hq'; rcases List.mem_cons.1 hq' with rfl | h; exacts [hle, hq q h]⟩
        · refine ⟨a, by simp, ?_⟩
          intro q hq'
          rcases List.mem_cons.1 hq' with rfl | h
          · exact le_rfl
          · exact le_trans (hq q h) (by omega)
  obtain ⟨rl, hrl, hrl'⟩ := hmax (fun r => r.1.1) rows hne
  obtain ⟨rm, hrm, hrm'⟩ := hmax (fun r => r.1.2) rows hne
  obtain ⟨q, hq⟩ : ∃ q, rows.getLast? = some q := by
    cases hl : rows.getLast? with
    | none => rw [List.getLast?_eq_none_iff] at hl; exact absurd hl hne
    | some q => exact ⟨q, rfl⟩
  obtain ⟨o, r0, r1, r2, r3, r4, r5, _⟩ := fromAscii_spec date (rows.map Prod.fst) txt C S D
    (by intro p hp; obtain ⟨r, hr, rfl⟩ := List.mem_map.1 hp; exact (e2 r hr).1) rl.1.1 rm.1.2
    (by intro p hp; obtain ⟨r, hr, rfl⟩ := List.mem_map.1 hp; exact ⟨hrl' r hr, hrm' r hr⟩)
    ⟨rl.1, List.mem_map_of_mem hrl, rfl⟩ ⟨rm.1, List.mem_map_of_mem hrm, rfl⟩ q.1 (by rw [List.getLast?_map, hq]; rfl) t
    (fun hd => (e2 q (List.mem_of_getLast? hq)).2.2.2 hd)
  refine ⟨o, by rw [e1]; exact r0, ?_, ?_, ?_, ⟨rl, hrl, r1.symm⟩, ⟨rm, hrm, r2.symm⟩, r5⟩
  · intro r hr
    have hmem : (r.1.1, r.1.2) ∈ rows.map Prod.fst := List.mem_map_of_mem hr
    rw [r3, r4, if_pos hmem, if_pos hmem, (e2 r hr).2.1, (e2 r hr).2.2.1]
    exact ⟨rfl, rfl⟩
  · intro l m hlm
    have hmem : (l, m) ∉ rows.map Prod.fst := by
      intro h
      obtain ⟨r, hr, e⟩ := List.mem_map.1 h
      exact hlm r hr e
    rw [r3, r4, if_neg hmem, if_neg hmem]
    exact ⟨rfl, rfl⟩
  · intro r hr
    rw [r1, r2]
    exact ⟨hrl' r hr, hrm' r hr⟩

/-! ## Examples -/

/-- degrees 0 to 2, with one coefficient of many digits -/
def exField : Field where
  lmax := 2
  mmax := 1
  clm l _ := some (if l = 2 then -1 / 3000 else 1)
  slm _ m := some (if m = 0 then 0 else 1 / 7)
  time := some 2004.04
  month := some 25

theorem exField_finite : Finite exField := by intro l m _; simp [exField]

example := ascii_round_trip exField true exField_finite (by decide) (by intro _; simp [exField])

example := ascii_stable exField true exField_finite (by decide) (by intro _; simp [exField])
  (by intro t ht; simp [exField] at ht; rw [← ht]; norm_num)

example : ∃ file o', toAscii exField true = .ok file ∧ fromAscii true file = .ok o' ∧ o'.month = some (calendarToGrace 2004.04) := by
  obtain ⟨f, o', h1, h2, _, h3⟩ := ascii_month exField exField_finite (by decide) 2004.04 rfl
  exact ⟨f, o', h1, h2, h3 ⟨24, by norm_num, by norm_num⟩⟩

/-- a date just before the turn of the year is read as January -/
example : calendarToGrace (2003.99997 : ℚ) = 24 ∧ calendarToGrace (roundTo 4 2003.99997) = 25 := by
  constructor <;> decide +kernel

/-- the same object with a missing coefficient -/
def exNan : Field := { exField with clm := fun l m => if (l, m) = (1, 0) then none else exField.clm l m }

example : ∃ file o', toAscii exNan true = .ok file ∧ fromAscii true file = .ok o' ∧ o'.clm 1 0 = some 0 ∧
    o'.slm 1 0 = some 2004.04 := by
  obtain ⟨f, o', h1, h2, h3, h4⟩ := ascii_nan exNan 1 0 ⟨by decide, by decide, by decide⟩ (by decide) rfl
    (by intro l m _ h; simp at h; simp [exNan, exField]; exact h) 0 (by simp [exNan, exField]) (by decide) 2004.04 rfl
  refine ⟨f, o', h1, h2, by rw [h3, roundSig_zero], ?_⟩
  rw [h4, roundTo_dec 4 _ ⟨20040400, by norm_num⟩]

example := ascii_nan_fails exNan 1 0 ⟨by decide, by decide, by decide⟩ (Or.inl rfl)

/-- two lines, the higher order first, the second with an exponent written with `D` -/
example : ∃ o, fromAscii false ["2 1 4 7".toList, "1 0 -0.5D-3 4".toList] = .ok o ∧ o.clm 2 1 = some 4 ∧ o.clm 1 0 = some (-0.0005) ∧
    o.slm 2 2 = some 0 := by
  let x : Lit := { sgn := .minus, ip := [0], fp := [5], ex := some (true, .minus, 3, []), digits := by decide }
  let k : Fin 10 → Tok := fun d => .int .none d [] none
  obtain ⟨o, h1, h2, h3, _⟩ := ascii_any_file false [((2, 1), 4, 7), ((1, 0), -0.0005, 4)]
    ["2 1 4 7".toList, "1 0 -0.5D-3 4".toList] 0 (by decide) (by simp) (by
      refine List.Forall₂.cons ⟨k 2, k 1, k 4, k 7, [], ?_, by decide, by decide, by decide +kernel, by decide +kernel, by simp⟩
        (List.Forall₂.cons ⟨k 1, k 0, .dec x, k 4, [], ?_, by decide, by decide, by decide +kernel, by decide +kernel, by simp⟩ .nil)
      · exact Num.num (k 2) (Or.inr ⟨' ', _, rfl, rfl⟩) (Num.blank ' ' rfl
          (Num.num (k 1) (Or.inr ⟨' ', _, rfl, rfl⟩) (Num.blank ' ' rfl
          (Num.num (k 4) (Or.inr ⟨' ', _, rfl, rfl⟩) (Num.blank ' ' rfl
          (Num.num (k 7) (Or.inl rfl) Num.nil))))))
      · exact Num.num (k 1) (Or.inr ⟨' ', _, rfl, rfl⟩) (Num.blank ' ' rfl
          (Num.num (k 0) (Or.inr ⟨' ', _, rfl, rfl⟩) (Num.blank ' ' rfl
          (Num.num (.dec x) (Or.inr ⟨' ', _, rfl, rfl⟩) (Num.blank ' ' rfl
          (Num.num (k 4) (Or.inl rfl) Num.nil)))))))
  refine ⟨o, h1, (h2 ((2, 1), 4, 7) (by simp)).1, (h2 ((1, 0), -0.0005, 4) (by simp)).1, (h3 2 2 (by simp)).2⟩

end Verif.HarmIO
