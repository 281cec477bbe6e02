import Verif.MonthsIndex.Read
import Mathlib.Tactic.IntervalCases

/-!
# The lines of the index (lemmas)
-/
namespace Verif.MonthsIndex
open Verif.Time Verif.Dates Verif.SLR Verif.SpatialIO Verif.MonthsIndex.Spec

/-! ## Lists -/

theorem mapM_ok {A B : Type} (f : A → Except Err B) (g : A → B) (l : List A) (h : ∀ a ∈ l, f a = .ok (g a)) :
    l.mapM f = .ok (l.map g) := by
  induction l with
  | nil => rfl
  | cons a l ih =>
    rw [List.mapM_cons, h a (by simp), ih fun b hb => h b (by simp [hb])]
    rfl

theorem mapM_error {A B : Type} (f : A → Except Err B) (l : List A) (a : A) (ha : a ∈ l) (e : Err) (h : f a = .error e) :
    ∃ e', l.mapM f = .error e' := by
  induction l with
  | nil => simp at ha
  | cons b l ih =>
    rw [List.mapM_cons]
    cases hb : f b with
    | error e' => exact ⟨e', rfl⟩
    | ok v =>
      rcases List.mem_cons.1 ha with rfl | ha
      · rw [h] at hb; cases hb
      · obtain ⟨e', he⟩ := ih ha
        rw [he]
        exact ⟨e', rfl⟩

theorem flatten_slice (w : ℕ) (l : List Text) (h : ∀ s ∈ l, s.length = w) (k : ℕ) (s : Text) (hk : l[k]? = some s) :
    (l.flatten.drop (w * k)).take w = s := by
  induction l generalizing k with
  | nil => simp at hk
  | cons a l ih =>
    have ha := h a (by simp)
    cases k with
    | zero =>
      simp at hk
      subst hk
      simp [← ha]
    | succ k =>
      rw [List.getElem?_cons_succ] at hk
      rw [List.flatten_cons, show w * (k + 1) = a.length + w * k by rw [ha, Nat.mul_succ]; omega, ← List.drop_drop,
        List.drop_left]
      exact ih (fun x hx => h x (by simp [hx])) k hk

theorem joinBlank_cons (a b : Text) (l : List Text) : joinBlank (a :: b :: l) = a ++ ' ' :: joinBlank (b :: l) := rfl

theorem joinBlank_slice (l : List Text) (h : ∀ s ∈ l, s.length = 20) (k : ℕ) (s : Text) (hk : l[k]? = some s) :
    ((joinBlank l).drop (21 * k)).take 20 = s := by
  induction l generalizing k with
  | nil => simp at hk
  | cons a l ih =>
    have ha := h a (by simp)
    cases l with
    | nil =>
      cases k with
      | zero =>
        simp at hk
        subst hk
        simp [joinBlank, ← ha]
      | succ k => simp at hk
    | cons b l =>
      rw [joinBlank_cons]
      cases k with
      | zero =>
        simp at hk
        subst hk
        simp [← ha]
      | succ k =>
        rw [List.getElem?_cons_succ] at hk
        rw [show a ++ ' ' :: joinBlank (b :: l) = (a ++ [' ']) ++ joinBlank (b :: l) by simp,
          show 21 * (k + 1) = (a ++ [' ']).length + 21 * k by rw [List.length_append, ha, List.length_singleton]; omega,
          ← List.drop_drop, List.drop_left]
        exact ih (fun x hx => h x (by simp [hx])) k hk

theorem joinBlank_length (l : List Text) (h : ∀ s ∈ l, s.length = 20) (hl : l ≠ []) :
    (joinBlank l).length + 1 = 21 * l.length := by
  induction l with
  | nil => exact absurd rfl hl
  | cons a l ih =>
    have ha := h a (by simp)
    cases l with
    | nil => simp [joinBlank, ha]
    | cons b l =>
      have := ih (fun x hx => h x (by simp [hx])) (by simp)
      rw [joinBlank_cons, List.length_append, List.length_cons, ha, List.length_cons (a := a)]
      omega

/-! ## The header -/

theorem center_length (w : ℕ) (s : Text) (h : s.length ≤ w) : (center w s).length = w := by
  simp [center]; omega

theorem center_blanked (w : ℕ) (s : Text) : Blanked (center w s) s := ⟨_, _, rfl⟩

theorem headerLine_take (names : List Text) : (headerLine names).take 13 = "   MONTH     ".toList := by
  unfold headerLine
  rw [List.take_append_of_le_length (by decide)]
  decide

theorem headerLine_column (names : List Text) (h : ∀ n ∈ names, n.length ≤ 21) (k : ℕ) (n : Text)
    (hk : names[k]? = some n) : Blanked (headColumn (headerLine names) k) n := by
  unfold headColumn headerLine
  have hl : (center 11 "MONTH".toList ++ [' ', ' ']).length = 13 := by decide
  have h0 : (center 11 "MONTH".toList ++ [' ', ' '] ++ (names.map (center 21)).flatten).drop 13 =
      (names.map (center 21)).flatten := by
    rw [← hl, List.drop_left]
  rw [← List.drop_drop, h0,
    flatten_slice 21 _ ?_ k (center 21 n) (by rw [List.getElem?_map, hk]; rfl)]
  · exact center_blanked 21 n
  · intro s hs
    obtain ⟨t, ht, rfl⟩ := List.mem_map.1 hs
    exact center_length 21 t (h t ht)

/-! ## The entries -/

theorem filter_rowOf (rows : List Dated) (m : ℤ) :
    (rows.map rowOf).filter (fun r => r.mon = m) = (rows.filter fun d => d.mon = m).map rowOf := by
  rw [List.filter_map]; rfl

/-- the entry of a dataset, when there is one -/
def cell (rows : List Dated) (m : ℤ) : Text :=
  match rows.filter fun d => d.mon = m with
  | d :: _ => rangeText (rowOf d)
  | [] => missingText

theorem entry_fits (rows : List Dated) (m : ℤ) (h : Fits rows m) : entry (rows.map rowOf) m = .ok (cell rows m) := by
  obtain ⟨h1, h2⟩ := h
  unfold entry cell
  rw [filter_rowOf]
  match hf : rows.filter fun d => d.mon = m with
  | [] => rw [hf]; rfl
  | [d] =>
    rw [hf]
    simp only [List.map_cons, List.map_nil, List.length_map]
    have hd : d ∈ rows.filter fun d => d.mon = m := by rw [hf]; simp
    rw [List.mem_filter] at hd
    rw [if_neg]
    intro hl
    exact h2 hl d hd.1 (by simpa using hd.2)
  | d :: d' :: t => rw [hf] at h1; simp at h1

theorem entry_error (rows : List Dated) (m : ℤ) (h : ¬ Fits rows m) :
    entry (rows.map rowOf) m = .error (if rows.length = 1 then .index else .value) := by
  unfold entry
  rw [filter_rowOf]
  match hf : rows.filter fun d => d.mon = m with
  | [] =>
    exfalso; apply h
    refine ⟨by rw [hf]; simp, fun _ d hd he => ?_⟩
    have : d ∈ rows.filter fun d => d.mon = m := by rw [List.mem_filter]; exact ⟨hd, by simpa using he⟩
    rw [hf] at this; simp at this
  | [d] =>
    rw [hf]
    simp only [List.map_cons, List.map_nil, List.length_map]
    by_cases hl : rows.length = 1
    · rw [if_pos hl, if_pos hl]
    · exact absurd ⟨by rw [hf]; simp, fun h' => absurd h' hl⟩ h
  | d :: d' :: t =>
    rw [hf]
    simp only [List.map_cons]
    rw [if_neg]
    intro hl
    have h2 := List.length_filter_le (fun d => decide (d.mon = m)) rows
    rw [hf] at h2
    simp at h2
    omega

theorem rangeText_eq (d : Dated) (h : Ordinary d) : rangeText (rowOf d) = range d := by
  obtain ⟨h1, h2, h3, h4, h5, h6, h7, h8⟩ := h
  unfold rangeText rowOf range
  rw [yearText_d4 _ h1 h2, yearText_d4 _ h5 h6, zeroText_d3 _ h3 h4, zeroText_d3 _ h7 h8]
  simp

theorem range_length (d : Dated) : (range d).length = 18 := by
  simp [range, d3_length, d4_length]

theorem cell_length (rows : List Dated) (m : ℤ) (ho : ∀ d ∈ rows, d.mon = m → Ordinary d) :
    (pad 20 (cell rows m)).length = 20 := by
  unfold cell
  match hf : rows.filter fun d => d.mon = m with
  | [] => rw [hf]; decide
  | d :: t =>
    have hd : d ∈ rows.filter fun d => d.mon = m := by rw [hf]; simp
    rw [List.mem_filter] at hd
    rw [hf]
    simp only
    rw [rangeText_eq d (ho d hd.1 (by simpa using hd.2))]
    simp [pad, range_length]

theorem cell_some (rows : List Dated) (m : ℤ) (h : Fits rows m) (d : Dated) (hd : d ∈ rows) (hm : d.mon = m)
    (ho : Ordinary d) : Blanked (pad 20 (cell rows m)) (range d) := by
  unfold cell
  have hin : d ∈ rows.filter fun d => d.mon = m := by rw [List.mem_filter]; exact ⟨hd, by simpa using hm⟩
  match hf : rows.filter fun d => d.mon = m with
  | [] => rw [hf] at hin; simp at hin
  | d' :: t =>
    have h1 := h.1
    rw [hf] at h1 hin ⊢
    have ht : t = [] := List.length_eq_zero_iff.1 (by simpa using h1)
    subst ht
    rw [List.mem_singleton] at hin
    subst hin
    simp only
    rw [rangeText_eq d ho]
    exact ⟨20 - (range d).length, 0, by simp [pad]⟩

theorem cell_none (rows : List Dated) (m : ℤ) (h : ∀ d ∈ rows, d.mon ≠ m) :
    Blanked (pad 20 (cell rows m)) "** missing **".toList := by
  have hf : rows.filter (fun d => d.mon = m) = [] := by
    rw [List.filter_eq_nil_iff]
    intro d hd
    simpa using h d hd
  unfold cell
  rw [hf]
  exact ⟨4, 3, by decide⟩

/-! ## The lines -/

/-- the label written for a month -/
def labelText (m : ℤ) : Text :=
  zeroText 3 m ++ ' ' :: pad 3 (monthAbbr.getD ((graceToCalendar m).2 - 1).toNat []) ++ pad 4 (intText (graceToCalendar m).1)

theorem label_ok (m : ℤ) (h4 : 4 ≤ m) (h : m < 1000) : Label (labelText m) m ∧ (labelText m).length = 11 := by
  unfold labelText graceToCalendar
  dsimp only
  have hk : ∃ k : ℕ, k < 12 ∧ (m - 1) % 12 = k := ⟨((m - 1) % 12).toNat, by omega, by omega⟩
  obtain ⟨k, hk, hm⟩ := hk
  rw [zeroText_d3 m (by omega) h, yearText_d4 _ (by omega) (by omega), hm,
    show ((k : ℤ) + 1 - 1).toNat = k by omega]
  have ha : ∀ k < 12, ∃ nm, ["Jan", "Feb", "Mar", "Apr", "May", "Jun", "Jul", "Aug", "Sep", "Oct", "Nov", "Dec"][k]? = some nm ∧
      pad 3 (monthAbbr.getD k []) = nm.toList ∧ nm.toList.length = 3 := by
    intro k hk
    interval_cases k <;> exact ⟨_, rfl, by decide, by decide⟩
  obtain ⟨nm, e1, e2, e3⟩ := ha k hk
  rw [e2]
  refine ⟨⟨2002 + (m - 1) / 12, k + 1, nm, ?_, by omega, by simpa using e1, by simp⟩, ?_⟩
  · push_cast; omega
  · rw [List.length_append, List.length_append, List.length_cons, d3_length, d4_length, e3]

theorem monthLine_ok (data : List (Text × List Row)) (cells : List Text) (m : ℤ)
    (h : (data.mapM fun d => entry d.2 m) = .ok cells) :
    monthLine data m = .ok (labelText m ++ ' ' :: joinBlank (cells.map (pad 20))) := by
  unfold monthLine
  rw [h]
  simp [labelText]

theorem monthLine_error (data : List (Text × List Row)) (e : Err) (m : ℤ)
    (h : (data.mapM fun d => entry d.2 m) = .error e) : monthLine data m = .error e := by
  unfold monthLine
  rw [h]

theorem monthLines_ok (data : List (Text × List Row)) (g : ℤ → Text) (ms : List ℤ)
    (h : ∀ m ∈ ms, monthLine data m = .ok (g m)) : monthLines data ms = (ms.map g, none) := by
  induction ms with
  | nil => rfl
  | cons m ms ih =>
    rw [monthLines, h m (by simp), ih fun x hx => h x (by simp [hx])]
    rfl

theorem monthLines_error (data : List (Text × List Row)) (g : ℤ → Text) (ms : List ℤ) (m : ℤ) (e : Err) (rest : List ℤ)
    (h : ∀ m ∈ ms, monthLine data m = .ok (g m)) (he : monthLine data m = .error e) :
    monthLines data (ms ++ m :: rest) = (ms.map g, some e) := by
  induction ms with
  | nil => rw [List.nil_append, monthLines, he]; rfl
  | cons a ms ih =>
    rw [List.cons_append, monthLines, h a (by simp), ih fun x hx => h x (by simp [hx])]
    rfl

theorem mem_monthRange (mx m : ℤ) : m ∈ monthRange mx ↔ 4 ≤ m ∧ m ≤ mx := by
  unfold monthRange
  simp only [List.mem_map, List.mem_range]
  constructor
  · rintro ⟨i, hi, rfl⟩; omega
  · intro h; exact ⟨(m - 4).toNat, by omega, by omega⟩

theorem monthRange_split (mx m : ℤ) (h4 : 4 ≤ m) (hm : m ≤ mx) :
    ∃ rest, monthRange mx = monthRange (m - 1) ++ m :: rest := by
  refine ⟨(List.range (mx - m).toNat).map fun i : ℕ => m + 1 + (i : ℤ), ?_⟩
  unfold monthRange
  have e : (mx + 1 - 4).toNat = (m - 1 + 1 - 4).toNat + (1 + (mx - m).toNat) := by omega
  rw [e, List.range_add, List.map_append, List.map_map]
  congr 1
  rw [show 1 + (mx - m).toNat = (mx - m).toNat + 1 by omega, List.range_succ_eq_map, List.map_cons, List.map_map]
  congr 1
  · simp only [Function.comp]; omega
  · apply List.map_congr_left
    intro i _
    simp only [Function.comp]; omega

theorem monthRange_get (mx m : ℤ) (h4 : 4 ≤ m) (hm : m ≤ mx) : (monthRange mx)[(m - 4).toNat]? = some m := by
  unfold monthRange
  rw [List.getElem?_map, List.getElem?_range (by omega)]
  simp; omega

theorem monthRange_length (mx : ℤ) : (monthRange mx).length = (mx - 3).toNat := by
  unfold monthRange
  rw [List.length_map, List.length_range]
  omega

end Verif.MonthsIndex
