import Verif.Fetch.Model
import Verif.Utilities.Files
import Verif.Time.Calendar
import Mathlib.Tactic.IntervalCases
import Mathlib.Tactic.SplitIfs

/-!
# Time stamps of ftp servers, and their listings (C108)
-/
namespace Verif.Fetch
open Verif.Utilities Verif.SLR Verif.GeoRead Verif.Time.Spec

/-! ## Time stamps -/

/-- the text `20200131235959` -/
def stampText (t : Stamp) : Str := pad4 t.y ++ (pad2 t.mo ++ (pad2 t.d ++ (pad2 t.h ++ (pad2 t.mi ++ pad2 t.s))))

/-- a date of the calendar and a time of day (leap seconds included) -/
def Proper (t : Stamp) : Prop := 1 ≤ t.y ∧ t.y < 10000 ∧ Valid t.y t.mo t.d ∧ t.h < 24 ∧ t.mi < 60 ∧ t.s ≤ 61

/-- seconds since 1970-01-01 00:00:00, every day with 86400 seconds -/
def seconds (t : Stamp) : ℤ := 86400 * (dayNumber t.y t.mo t.d - dayNumber 1970 1 1) + 3600 * t.h + 60 * t.mi + t.s

theorem alts_pad2 (lo hi n : ℕ) (r : List Char) (h1 : lo ≤ n) (h2 : n ≤ hi) (h3 : hi < 100) :
    (alts lo hi (pad2 n ++ r)).head? = some (n, r) := by
  have hv := pad2_val n (by omega)
  have hd := dchar_ofNat
  unfold pad2 at hv
  simp only [alts, pad2, List.cons_append, List.nil_append, hv, (hd _).1, true_and, h1, h2, and_self, if_true]
  rfl

theorem monthDays_cast (y m : ℕ) : ((monthDays y m : ℕ) : ℤ) = monthLen y m := by
  unfold monthDays monthLen gregLeap
  split_ifs <;> first | rfl | omega

theorem ordinal_eq (y m d : ℕ) (hy : 1 ≤ y) (h1 : 1 ≤ m) (h2 : m ≤ 12) : ((ordinal y m d : ℕ) : ℤ) = dayNumber y m d + 678576 := by
  have hs : (((List.range (m - 1)).map fun k : ℕ => monthDays y (k + 1)).sum : ℤ) = daysBefore y m := by
    have hl : monthDays y 2 = if gregLeap (y : ℤ) then 29 else 28 := by
      have h := monthDays_cast y 2
      unfold monthLen at h
      by_cases hg : gregLeap (y : ℤ)
      · simp only [hg, if_true] at h ⊢; simp at h; omega
      · simp only [hg, if_false] at h ⊢; simp at h; omega
    have : ∀ k, k ≠ 2 → monthDays y k = if k = 4 ∨ k = 6 ∨ k = 9 ∨ k = 11 then 30 else 31 := by
      intro k hk; unfold monthDays; rw [if_neg hk]
    unfold daysBefore
    by_cases hg : gregLeap (y : ℤ) <;> simp only [hg, if_true, if_false] at hl <;>
      interval_cases m <;> simp [List.range_succ, hl, this, hg]
  unfold ordinal dayNumber
  have ha : (y - 1) / 100 ≤ 365 * (y - 1) + (y - 1) / 4 := by omega
  push_cast [Nat.cast_sub ha, Nat.cast_sub hy]
  rw [← hs]
  push_cast
  ring

/-- `MDTM` stamps are read as the date and time they spell -/
theorem strptime_text (t : Stamp) (h : Proper t) : strptime (stampText t) = some t := by
  obtain ⟨hy, hy2, ⟨m1, m2, d1, d2⟩, hh, hmi, hs⟩ := h
  have hd31 : t.d ≤ 31 := by
    have := monthDays_le t.y t.mo
    have := monthDays_cast t.y t.mo
    omega
  have hr : (stampRuns t.y (pad2 t.mo ++ (pad2 t.d ++ (pad2 t.h ++ (pad2 t.mi ++ pad2 t.s))))).head? = some (t, []) := by
    unfold stampRuns
    refine head_flatMap _ _ _ _ (alts_pad2 1 12 t.mo _ (by omega) (by omega) (by omega)) ?_
    refine head_flatMap _ _ _ _ (alts_pad2 1 31 t.d _ (by omega) (by omega) (by omega)) ?_
    refine head_flatMap _ _ _ _ (alts_pad2 0 23 t.h _ (by omega) (by omega) (by omega)) ?_
    refine head_flatMap _ _ _ _ (alts_pad2 0 59 t.mi _ (by omega) (by omega) (by omega)) ?_
    have := alts_pad2 0 61 t.s [] (by omega) (by omega) (by omega)
    rw [List.append_nil] at this
    rw [List.head?_map, this]
    rfl
  unfold strptime stampText
  rw [year4_pad4 _ _ hy2]
  have hv : t.d ≤ monthDays t.y t.mo := by have := monthDays_cast t.y t.mo; omega
  simp [hr, hy, hv]

theorem rstrip_text (cs ws : Str) (hw : ∀ c ∈ ws, Utilities.isSpace c = true) (hc : ∀ c ∈ cs.getLast?, Utilities.isSpace c = false) :
    rstrip (cs ++ ws) = cs := by
  unfold rstrip
  have h1 : (ws.reverse ++ cs.reverse).dropWhile Utilities.isSpace = cs.reverse.dropWhile Utilities.isSpace := by
    apply List.dropWhile_append_of_pos
    intro c h; exact hw c (by simpa using h)
  rw [List.reverse_append, h1]
  cases hcs : cs.reverse with
  | nil => simp [List.reverse_eq_nil_iff.1 hcs]
  | cons c r =>
    have hl : cs.getLast? = some c := by
      rw [← List.head?_reverse, hcs]; rfl
    have := hc c (by rw [hl]; rfl)
    rw [List.dropWhile_cons_of_neg (by simp [this]), ← hcs, List.reverse_reverse]

theorem timegm_seconds (t : Stamp) (h : Proper t) : timegm t = seconds t := by
  obtain ⟨hy, hy2, ⟨m1, m2, d1, d2⟩, -⟩ := h
  unfold timegm seconds
  rw [ordinal_eq _ _ _ hy (by omega) (by omega)]
  have h0 : ((ordinal 1970 1 1 : ℕ) : ℤ) = dayNumber 1970 1 1 + 678576 := ordinal_eq 1970 1 1 (by omega) (by omega) (by omega)
  have hd : dayNumber t.y t.mo t.d = dayNumber t.y t.mo 1 + t.d - 1 := by unfold dayNumber; ring
  rw [h0, hd]
  push_cast
  ring

theorem digit_not_space (n : ℕ) : Utilities.isSpace (dchar (Fin.ofNat 10 n)) = false := by
  have h : ∀ k : Fin 10, Utilities.isSpace (dchar k) = false := by decide
  exact h _

/-- **C108** the time of a reply to `MDTM` is the number of seconds since 1970 of the date and time it spells, whatever white space
follows -/
theorem unixTime_right (other : Str → Option ℚ) (t : Stamp) (h : Proper t) (ws : Str) (hw : ∀ c ∈ ws, Utilities.isSpace c = true) :
    unixTime other (stampText t ++ ws) = some ((seconds t : ℤ) : ℚ) := by
  have hr : rstrip (stampText t ++ ws) = stampText t := by
    refine rstrip_text _ _ hw ?_
    intro c hc
    have : (stampText t).getLast? = some (dchar (Fin.ofNat 10 t.s)) := by simp [stampText, pad2, pad4]
    rw [this] at hc
    cases hc
    exact digit_not_space _
  unfold unixTime
  rw [hr, strptime_text t h]
  beta_reduce
  simp only [timegm_seconds t h]

example : Proper ⟨2016, 2, 29, 23, 59, 60⟩ ∧ seconds ⟨2016, 2, 29, 23, 59, 60⟩ = 1456790400 ∧
    stampText ⟨2016, 2, 29, 23, 59, 60⟩ = "20160229235960".toList := by
  unfold Proper seconds; decide +kernel

/-- the order of dates and times -/
def Earlier (a b : Stamp) : Prop :=
  Before a.y a.mo a.d b.y b.mo b.d ∨ ((a.y, a.mo, a.d) = (b.y, b.mo, b.d) ∧ (a.h < b.h ∨ (a.h = b.h ∧ (a.mi < b.mi ∨ (a.mi = b.mi ∧ a.s < b.s)))))

theorem daysBefore_step (y m m' d : ℤ) (h1 : 1 ≤ m) (h2 : m < m') (h3 : m' ≤ 12) (hd : d ≤ monthLen y m) :
    daysBefore y m + d ≤ daysBefore y m' := by
  have h4 : m ≤ 12 := by omega
  have h5 : 1 ≤ m' := by omega
  unfold monthLen at hd
  unfold daysBefore
  by_cases hg : gregLeap y <;> simp only [hg, if_true, if_false, and_true, and_false] at hd ⊢ <;> interval_cases m <;>
    interval_cases m' <;> norm_num at hd ⊢ <;> omega

theorem daysBefore_year (y m d : ℤ) (h1 : 1 ≤ m) (h2 : m ≤ 12) (hd : d ≤ monthLen y m) : daysBefore y m + d ≤ yearLen y := by
  unfold monthLen at hd
  unfold daysBefore yearLen
  by_cases hg : gregLeap y <;> simp only [hg, if_true, if_false, and_true, and_false] at hd ⊢ <;> interval_cases m <;>
    norm_num at hd ⊢ <;> omega

theorem daysBefore_nonneg (y m : ℤ) (h1 : 1 ≤ m) (h2 : m ≤ 12) : 0 ≤ daysBefore y m := by
  unfold daysBefore
  by_cases hg : gregLeap y <;> simp only [hg, and_true, and_false, if_false] <;> interval_cases m <;> norm_num

theorem yearLen_eq (y : ℤ) : yearLen y = 365 + (y / 4 - (y - 1) / 4) - (y / 100 - (y - 1) / 100) + (y / 400 - (y - 1) / 400) := by
  unfold yearLen
  by_cases h4 : y % 4 = 0
  · have e4 : y / 4 - (y - 1) / 4 = 1 := by omega
    by_cases h100 : y % 100 = 0
    · have e100 : y / 100 - (y - 1) / 100 = 1 := by omega
      by_cases h400 : y % 400 = 0
      · have e400 : y / 400 - (y - 1) / 400 = 1 := by omega
        rw [if_pos (show gregLeap y from Or.inr h400)]; omega
      · have e400 : y / 400 - (y - 1) / 400 = 0 := by omega
        rw [if_neg (show ¬ gregLeap y by unfold gregLeap; omega)]; omega
    · have e100 : y / 100 - (y - 1) / 100 = 0 := by omega
      have e400 : y / 400 - (y - 1) / 400 = 0 := by omega
      rw [if_pos (show gregLeap y from Or.inl ⟨h4, h100⟩)]; omega
  · have e4 : y / 4 - (y - 1) / 4 = 0 := by omega
    have e100 : y / 100 - (y - 1) / 100 = 0 := by omega
    have e400 : y / 400 - (y - 1) / 400 = 0 := by omega
    rw [if_neg (show ¬ gregLeap y by unfold gregLeap; omega)]; omega

theorem years_mono (a b : ℤ) (h : a ≤ b) : 365 * a + a / 4 - a / 100 + a / 400 ≤ 365 * b + b / 4 - b / 100 + b / 400 := by
  have h4 : a / 4 ≤ b / 4 := by omega
  have h400 : a / 400 ≤ b / 400 := by omega
  have h100 : b / 100 - a / 100 ≤ b - a := by omega
  omega

theorem dayNumber_mono (y m d y' m' d' : ℤ) (h : Valid y m d) (h' : Valid y' m' d') (hb : Before y m d y' m' d') :
    dayNumber y m d < dayNumber y' m' d' := by
  obtain ⟨m1, m2, d1, d2⟩ := h
  obtain ⟨m1', m2', d1', d2'⟩ := h'
  rcases hb with hy | ⟨rfl, hm | ⟨rfl, hd⟩⟩
  · have ha := daysBefore_year y m d m1 m2 d2
    have hb := daysBefore_nonneg y' m' m1' m2'
    have hl := yearLen_eq y
    have hm := years_mono y (y' - 1) (by omega)
    unfold dayNumber
    omega
  · have ha := daysBefore_step y m m' d m1 hm m2' d2
    unfold dayNumber
    omega
  · unfold dayNumber
    omega

/-- **C108** later files have larger times -/
theorem unixTime_order (other : Str → Option ℚ) (a b : Stamp) (ha : Proper a) (hb : Proper b) (h60 : a.s < 60) (he : Earlier a b) :
    ∃ s t : ℚ, unixTime other (stampText a) = some s ∧ unixTime other (stampText b) = some t ∧ s < t := by
  refine ⟨((seconds a : ℤ) : ℚ), ((seconds b : ℤ) : ℚ), ?_, ?_, ?_⟩
  · simpa using unixTime_right other a ha [] (by simp)
  · simpa using unixTime_right other b hb [] (by simp)
  · have : seconds a < seconds b := by
      obtain ⟨-, -, va, h1, h2, -⟩ := ha
      obtain ⟨-, -, vb, -⟩ := hb
      unfold seconds
      rcases he with hd | ⟨hd, ht⟩
      · have := dayNumber_mono _ _ _ _ _ _ va vb hd
        omega
      · simp only [Prod.mk.injEq] at hd
        rw [hd.1, hd.2.1, hd.2.2]
        omega
    exact_mod_cast this

/-- **C108** a stamp that is not that of a date, or has fractions of seconds, is left to `dateutil`, which takes it as local time -/
theorem unixTime_fraction (other : Str → Option ℚ) (t : Stamp) (h : Proper t) (c : Char) (hc : c.isDigit = true) :
    unixTime other (stampText t ++ ['.', c]) = other (stampText t ++ ['.', c]) := by
  have hns : Utilities.isSpace c = false := by
    have hd := hc
    unfold Char.isDigit at hd
    simp only [Bool.and_eq_true, decide_eq_true_eq] at hd
    unfold Utilities.isSpace
    have h1 : c ≠ ' ' := by rintro rfl; revert hc; decide
    have h2 : c ≠ '\t' := by rintro rfl; revert hc; decide
    have h3 : c ≠ '\n' := by rintro rfl; revert hc; decide
    have h4 : c ≠ '\r' := by rintro rfl; revert hc; decide
    have h5 : c ≠ '\x0b' := by rintro rfl; revert hc; decide
    have h6 : c ≠ '\x0c' := by rintro rfl; revert hc; decide
    simp [h1, h2, h3, h4, h5, h6]
  have hr : rstrip (stampText t ++ ['.', c]) = stampText t ++ ['.', c] := by
    have := rstrip_text (stampText t ++ ['.', c]) [] (by simp) (by
      intro x hx
      simp at hx
      subst hx; exact hns)
    simpa using this
  obtain ⟨hy, hy2, ⟨m1, m2, d1, d2⟩, hh, hmi, hs⟩ := h
  have hd31 : t.d ≤ 31 := by
    have := monthDays_le t.y t.mo
    have := monthDays_cast t.y t.mo
    omega
  have hn : strptime (stampText t ++ ['.', c]) = none := by
    have hrun : (stampRuns t.y (pad2 t.mo ++ (pad2 t.d ++ (pad2 t.h ++ (pad2 t.mi ++ (pad2 t.s ++ ['.', c])))))).head? =
        some (t, ['.', c]) := by
      unfold stampRuns
      refine head_flatMap _ _ _ _ (alts_pad2 1 12 t.mo _ (by omega) (by omega) (by omega)) ?_
      refine head_flatMap _ _ _ _ (alts_pad2 1 31 t.d _ (by omega) (by omega) (by omega)) ?_
      refine head_flatMap _ _ _ _ (alts_pad2 0 23 t.h _ (by omega) (by omega) (by omega)) ?_
      refine head_flatMap _ _ _ _ (alts_pad2 0 59 t.mi _ (by omega) (by omega) (by omega)) ?_
      rw [List.head?_map, alts_pad2 0 61 t.s ['.', c] (by omega) (by omega) (by omega)]
      rfl
    unfold strptime stampText
    simp only [List.append_assoc]
    rw [year4_pad4 _ _ hy2]
    simp [hrun]
  unfold unixTime
  rw [hr, hn]

/-- **C108** a stamp with a digit missing is not refused: its seconds have one digit -/
example : unixTime (fun _ => none) "2020010112345".toList = some ((seconds ⟨2020, 1, 1, 12, 34, 5⟩ : ℤ) : ℚ) := by decide +kernel

example : unixTime (fun _ => none) "20210231120000".toList = none := by decide +kernel

/-! ## Listings -/

/-- the time of an item: directories have none -/
def itemTime (other : Str → Option ℚ) : Mdtm → Option ℚ
  | .reply s => unixTime other (s.drop 4)
  | _ => none

theorem mtimes_eq (other : Str → Option ℚ) (mdtm : Str → Mdtm) (names : List Str) (h : ∀ f ∈ names, mdtm f ≠ .raises) :
    mtimes other mdtm names = some (names.map fun f => itemTime other (mdtm f)) := by
  induction names with
  | nil => rfl
  | cons f r ih =>
    have ih := ih fun g hg => h g (by simp [hg])
    have hf := h f (by simp)
    simp only [mtimes, ih, List.map_cons]
    cases hm : mdtm f with
    | raises => exact absurd hm hf
    | perm => rfl
    | reply s => rfl

theorem mtimes_none (other : Str → Option ℚ) (mdtm : Str → Mdtm) (names : List Str) (f : Str) (hf : f ∈ names) (h : mdtm f = .raises) :
    mtimes other mdtm names = none := by
  induction names with
  | nil => simp at hf
  | cons g r ih =>
    simp only [mtimes]
    rcases List.mem_cons.1 hf with rfl | hr
    · rw [h]
    · rw [ih hr]
      cases mdtm g <;> rfl

/-- **C108** the listing of a directory: the items are those of the server whose name (or last part of the name, if asked for)
matches the pattern, each with its own time, in order of name if sorting is asked for -/
theorem ftpList_right (other : Str → Option ℚ) (srv : FtpServer) (hst p0 : Str) (ps : List Str) (base : Bool) (pat : Option (Str → Bool))
    (sort : Bool) (names : List Str) (hreach : srv.reach = true) (hlogin : srv.login = true)
    (hn : srv.nlst (path (p0 :: ps)) = some names) (hm : ∀ f ∈ names, srv.mdtm f ≠ .raises) :
    ∃ l : List (Str × Option ℚ), ftpList other srv (hst :: p0 :: ps) base pat sort = .ok (l.map Prod.fst, l.map Prod.snd) ∧
      l.Perm ((names.map fun f => (if base then basename f else f, itemTime other (srv.mdtm f))).filter fun q =>
        (pat.map fun p => p q.1).getD true) ∧
      (sort = true → (l.map Prod.fst).Pairwise (· ≤ ·)) ∧
      (sort = false → l = (names.map fun f => (if base then basename f else f, itemTime other (srv.mdtm f))).filter fun q =>
        (pat.map fun p => p q.1).getD true) := by
  have hz : (if base then names.map basename else names).zip (names.map fun f => itemTime other (srv.mdtm f)) =
      names.map fun f => (if base then basename f else f, itemTime other (srv.mdtm f)) := by
    clear hn hm
    cases base <;> induction names with
    | nil => rfl
    | cons a t ih => simpa using ih
  obtain ⟨l, h1, h2, h3, h4⟩ := listing_aligned pat sort (if base then names.map basename else names)
    (names.map fun f => itemTime other (srv.mdtm f)) (by cases base <;> simp)
  rw [hz] at h2 h4
  refine ⟨l, ?_, h2, h3, h4⟩
  have hp : join (p0 :: ps) = some (path (p0 :: ps)) := rfl
  simp only [ftpList, hreach, hlogin, hp, hn, mtimes_eq other srv.mdtm names hm, h1, not_true_eq_false, if_false]

/-- **C108** one item whose time cannot be asked for (an answer other than "not permitted") ends the listing; a host without a path
cannot be listed -/
theorem ftpList_fails (other : Str → Option ℚ) (srv : FtpServer) (hst p0 : Str) (ps : List Str) (base : Bool)
    (pat : Option (Str → Bool)) (sort : Bool) (hreach : srv.reach = true) (hlogin : srv.login = true) :
    (∀ names f, srv.nlst (path (p0 :: ps)) = some names → f ∈ names → srv.mdtm f = .raises →
      ftpList other srv (hst :: p0 :: ps) base pat sort = .error .ftp) ∧
    ftpList other srv [hst] base pat sort = .error .type := by
  constructor
  · intro names f hn hf hm
    have hp : join (p0 :: ps) = some (path (p0 :: ps)) := rfl
    simp only [ftpList, hreach, hlogin, hp, hn, mtimes_none other srv.mdtm names f hf hm, not_true_eq_false, if_false]
  · simp [ftpList, hreach, hlogin, join]

/-- a server with a file and a directory -/
def sample : FtpServer where
  reach := true
  login := true
  nlst := fun p => if p = "pub/slr".toList then some ["pub/slr/b.txt".toList, "pub/slr/a".toList] else none
  mdtm := fun f => if f = "pub/slr/b.txt".toList then .reply "213 20200101000000".toList else .perm

example : sample.reach = true ∧ sample.login = true ∧ path ["pub".toList, "slr".toList] = "pub/slr".toList ∧
    sample.nlst "pub/slr".toList = some ["pub/slr/b.txt".toList, "pub/slr/a".toList] ∧
    (["pub/slr/b.txt".toList, "pub/slr/a".toList].map fun f => itemTime (fun _ => none) (sample.mdtm f)) = [some 1577836800, none] ∧
    basename "pub/slr/b.txt".toList = "b.txt".toList := by decide +kernel

/-- **C108** `check_ftp_connection` is true exactly if connection, login and test succeed; else the first failure decides -/
theorem checkFtp_right (steps : List Ftp) :
    (checkFtp steps = .true_ ↔ ∀ x ∈ steps, x = .fine) ∧
    (∀ k : ℕ, ∀ x : Ftp, steps[k]? = some x → x ≠ .fine → (∀ j < k, steps[j]? = some .fine) →
      checkFtp steps = (match x with | .os => .internet | .perm => .credentials | _ => .raised)) := by
  induction steps with
  | nil => simp [checkFtp]
  | cons a r ih =>
    constructor
    · cases a <;> simp [checkFtp, ih.1]
    · intro k x hx hne hj
      cases k with
      | zero =>
        simp at hx; subst hx
        cases a <;> first | exact absurd rfl hne | rfl
      | succ k =>
        have h0 := hj 0 (by omega)
        simp at h0; subst h0
        exact ih.2 k x (by simpa using hx) hne fun j h => by simpa using hj (j + 1) (by omega)

example : checkFtp [.fine, .perm, .fine] = .credentials := by decide

end Verif.Fetch
