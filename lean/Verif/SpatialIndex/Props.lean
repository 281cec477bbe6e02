import Verif.SpatialIndex.Model
import Verif.SpatialIO.Data
import Verif.HarmIO.IndexProps
import Mathlib.Tactic.Ring
import Mathlib.Tactic.Linarith

/-!
# C116: series of grids in index files
-/
set_option linter.unusedSectionVars false
namespace Verif.SpatialIndex
open Verif.SpatialIO.Data
open Verif.SpatialIO (isFill)
open Verif.HarmIO.Data (Path compress resolve splitLines keepLine Valid indexText indexText_lines resolve_compress)

/-! ## One date of a series -/

theorem slice_at {α : Type} [Inhabited α] (l : List α) (r c n t : ℕ) (hl : l.length = r * c * n) (ht : t < n) :
    ∃ s : List α, slice (⟨[r, c, n], l⟩ : Arr α) t = some ⟨[r, c], s⟩ ∧ s.length = r * c ∧
      (∀ k, k < r * c → s[k]? = l[k * n + t]?) := by
  refine ⟨_, by unfold slice; simp only; rw [if_pos ht], by simp, ?_⟩
  intro k hk
  have h1 : k * n + t < l.length := by
    rw [hl]
    have : (k + 1) * n ≤ r * c * n := Nat.mul_le_mul_right n hk
    nlinarith
  rw [List.getElem?_map, List.getElem?_range hk]
  simp [List.getD_eq_getElem?_getD, List.getElem?_eq_getElem h1]

theorem at3_slice {α : Type} (l s : List α) (r c n t : ℕ) (ht : t < n)
    (h : ∀ k, k < r * c → s[k]? = l[k * n + t]?) (i j : ℕ) :
    at3 (⟨[r, c], s⟩ : Arr α) i j 0 = at3 (⟨[r, c, n], l⟩ : Arr α) i j t := by
  rw [at3_two, at3_three]
  by_cases hij : i < r ∧ j < c
  · rw [if_pos ⟨hij.1, hij.2, rfl⟩, if_pos ⟨hij.1, hij.2, ht⟩]
    refine h _ ?_
    have : (i + 1) * c ≤ r * c := Nat.mul_le_mul_right c hij.1
    nlinarith [hij.2]
  · rw [if_neg (fun x => hij ⟨x.1, x.2.1⟩), if_neg (fun x => hij ⟨x.1, x.2.1⟩)]

/-- the object of one date -/
structure IsDate (o s : Sp) (nlat nlon t : ℕ) : Prop where
  grid : Grid s nlat nlon 1
  cons : Consistent s
  shape : s.data.shape = [nlat, nlon]
  attrs : s.attrs = .dict []
  fill : s.fill = o.fill
  lat : s.lat = o.lat
  lon : s.lon = o.lon
  time : s.time.flat = [o.time.flat.getD t none]
  data : ∀ i j, at3 s.data i j 0 = at3 o.data i j t
  mask : ∀ i j, at3 s.mask i j 0 = at3 o.mask i j t

theorem index_date (o : Sp) (nlat nlon nt t : ℕ) (hg : Grid o nlat nlon nt) (hc : Consistent o)
    (h3 : o.data.shape = [nlat, nlon, nt]) (h4 : o.time.shape = [nt]) (h1 : nlat ≠ 1 ∧ nlon ≠ 1) (ht : t < nt) :
    ∃ s, index true o t = .ok (some s) ∧ IsDate o s nlat nlon t := by
  obtain ⟨sd, d1, d2, d3⟩ := slice_at o.data.flat nlat nlon nt t hg.size.1 ht
  obtain ⟨sm, m1, m2, m3⟩ := slice_at o.mask.flat nlat nlon nt t hg.size.2 ht
  have ed : o.data = ⟨[nlat, nlon, nt], o.data.flat⟩ := by cases ho : o.data; rw [ho] at h3; simp at h3; simp [h3]
  have em : o.mask = ⟨[nlat, nlon, nt], o.mask.flat⟩ := by
    have := hg.mask
    rw [h3] at this
    cases ho : o.mask; rw [ho] at this; simp at this; simp [this]
  have hsq : ∀ {α : Type} (s : List α), squeeze (⟨[nlat, nlon], s⟩ : Arr α) = ⟨[nlat, nlon], s⟩ := by
    intro α s; simp [squeeze, h1]
  set u : Sp :=
    { o with
      data := ⟨[nlat, nlon], sd⟩
      mask := ⟨[nlat, nlon], sm⟩
      time := ⟨[], [o.time.flat.getD t none]⟩
      attrs := .dict [] } with hu
  have hcu : Consistent u := by
    intro k x b hx hb
    have hk : k < nlat * nlon := by rw [← d2]; exact (List.getElem?_eq_some_iff.1 hx).1
    rw [hu] at hx hb
    simp only at hx hb
    rw [d3 k hk] at hx
    rw [m3 k hk] at hb
    exact hc _ x b hx hb
  have hum : updateMask u = u := updateMask_consistent u hcu (by simp [hu, d2, m2])
  refine ⟨u, ?_, ?_⟩
  · unfold index
    rw [if_neg (by
      rintro ⟨-, hh⟩
      exact hh ⟨by rw [h4]; simp, by rw [hg.time.2]; exact ht⟩)]
    rw [ed, d1, em, m1]
    simp only [hsq, if_true]
    exact congrArg (fun x => Except.ok (some x)) hum
  · refine ⟨⟨hg.lat, hg.lon, ⟨Or.inr ⟨rfl, rfl⟩, rfl⟩, Or.inr ⟨rfl, rfl⟩, rfl, ?_⟩, hcu, rfl, rfl, rfl, rfl, rfl, rfl, ?_, ?_⟩
    · simp [hu, d2, m2]
    · intro i j; rw [ed]; exact at3_slice _ _ _ _ _ _ ht d3 i j
    · intro i j; rw [em]; exact at3_slice _ _ _ _ _ _ ht m3 i j

/-! ## One file -/

/-- the array that comes back from a file: square grids are transposed -/
def back {α : Type} [Inhabited α] (nlat nlon : ℕ) (l : List α) : Arr α :=
  if nlat = nlon then transpose ⟨[nlat, nlon], l⟩ else ⟨[nlat, nlon], l⟩

theorem back_shape {α : Type} [Inhabited α] (nlat nlon : ℕ) (l : List α) : (back nlat nlon l).shape = [nlat, nlon] := by
  unfold back
  split_ifs with h
  · subst h; rfl
  · rfl

theorem back_length {α : Type} [Inhabited α] (nlat nlon : ℕ) (l : List α) (hl : l.length = nlat * nlon) :
    (back nlat nlon l).flat.length = nlat * nlon := by
  unfold back
  split_ifs with h
  · subst h; exact transpose_length l nlat
  · exact hl

theorem back_at {α : Type} [Inhabited α] (nlat nlon : ℕ) (l : List α) (hl : l.length = nlat * nlon) (i j : ℕ) :
    at3 (back nlat nlon l) i j 0 = if nlat = nlon then at3 (⟨[nlat, nlon], l⟩ : Arr α) j i 0 else at3 (⟨[nlat, nlon], l⟩ : Arr α) i j 0 := by
  unfold back
  split_ifs with h
  · subst h
    by_cases hij : i < nlat ∧ j < nlat
    · exact transpose_at l nlat hl i j hij.1 hij.2
    · have : transpose (⟨[nlat, nlat], l⟩ : Arr α) = ⟨[nlat, nlat], (transpose (⟨[nlat, nlat], l⟩ : Arr α)).flat⟩ := rfl
      rw [this, at3_two, at3_two, if_neg (fun x => hij ⟨x.1, x.2.1⟩), if_neg (fun x => hij ⟨x.2.1, x.1⟩)]
  · rfl

/-- what comes back from a file -/
structure IsBack (s r : Sp) (nlat nlon : ℕ) : Prop where
  lat : r.lat = s.lat
  lon : r.lon = s.lon
  time : r.time.flat = s.time.flat
  fill : r.fill = s.fill
  data : r.data = back nlat nlon s.data.flat
  mask : r.mask = back nlat nlon s.mask.flat
  cons : Consistent r

theorem file_back (hdf5 : Bool) (w : WOpts) (old : Option File) (s : Sp) (nlat nlon : ℕ) (hg : Grid s nlat nlon 1)
    (hc : Consistent s) (hn : Distinct w.names) (hw : w.clobber = true) (hd : s.attrs = .dict [])
    (ha : ∀ a, w.attributes = some a → a.lookup "ROOT" ≠ none) (hdate : w.date = true) (h2 : 1 < nlat ∧ 1 < nlon) :
    ∃ f r, dataWriter hdf5 w s old = .ok f ∧ read w.names true f = .ok r ∧ IsBack s r nlat nlon := by
  obtain ⟨o1, f, k0, k1, k2, k3, k4, _⟩ := write_spec hdf5 w old s nlat nlon 1 hg hc hn (Or.inl hw) [] hd ha (Or.inl hdate)
  obtain ⟨o', r, e0, e1, e2, e3, e4, e5, e6, e7, _⟩ := read_spec w s nlat nlon 1 hg [] f k1 k2 k3 _ k4 (by omega) (by omega) _ rfl
  have hz : orient nlon ⟨(if w.date then [nlat, nlon, 1] else [nlat, nlon]).filter fun n => n ≠ 1, s.data.flat⟩ =
      back nlat nlon s.data.flat := by
    have : ((if w.date then [nlat, nlon, 1] else [nlat, nlon]).filter fun n => n ≠ 1) = [nlat, nlon] := by
      have a : nlat ≠ 1 := by omega
      have b : nlon ≠ 1 := by omega
      split <;> simp [a, b]
    rw [this]
    unfold orient back
    simp only
    by_cases h : nlat = nlon
    · rw [if_pos h.symm, if_pos h]
    · rw [if_neg (Ne.symm h), if_neg h]
  rw [hz] at e2 e4
  have hs := hg.size
  rw [mul_one] at hs
  have hcb : Consistent { s with data := back nlat nlon s.data.flat, mask := back nlat nlon s.mask.flat } := by
    by_cases h : nlat = nlon
    · subst h
      have := transpose_consistent s hc nlat (by omega) hs.1 hs.2
      simpa [back] using this
    · intro k x b hx hb
      simp only [back, if_neg h] at hx hb
      exact hc k x b hx hb
  have hrm := read_mask { s with data := back nlat nlon s.data.flat, mask := back nlat nlon s.mask.flat } r hcb
    (by simp only [back_length _ _ _ hs.1, back_length _ _ _ hs.2]) e2 e3 e4
  have hmm : (updateMask r).mask = back nlat nlon s.mask.flat := by
    rw [hrm.2]
    have a := back_shape nlat nlon s.data.flat
    have b := back_shape nlat nlon s.mask.flat
    simp only [a]
    rw [← b]
  have hax : (updateMask r).lat = r.lat ∧ (updateMask r).lon = r.lon ∧ (updateMask r).time = r.time ∧
      (updateMask r).fill = r.fill := by
    unfold updateMask
    cases hr : r.fill <;> simp [hr]
  refine ⟨f, o', ?_, by rw [← hdate]; exact e0, ?_⟩
  · unfold dataWriter; rw [k0]; rfl
  · refine ⟨by rw [e1, hax.1, e5], by rw [e1, hax.2.1, e6], by rw [e1, hax.2.2.1, e7 hdate]; rfl, by rw [e1, hax.2.2.2, e3],
      by rw [e1, hrm.1], by rw [e1, hmm], ?_⟩
    intro k x b hx hb
    rw [e1, hrm.1] at hx
    rw [e1, hmm] at hb
    have := hcb k x b hx hb
    rw [e1, hax.2.2.2, e3]
    exact this

/-! ## The loops -/

theorem writing_loop (wr : Sp → Option File → Except Err File) (home : Path) (o : Sp) (n : ℕ) (P : ℕ → File → Prop)
    (hcodec : ∀ i, i < n → ∀ old, ∃ s c, index true o i = .ok (some s) ∧ wr s old = .ok c ∧ P i c) (files : List Path) :
    ∀ (k : ℕ) (fs : Path → Option File) (txt : List Char), k + files.length ≤ n → files.Nodup →
      ∃ fs', (files.zipIdx k).foldlM (writeEntry (some wr) true home o) (fs, txt) = .ok (fs', txt ++ indexText home files) ∧
        (∀ i f, files[i]? = some f → ∃ c, fs' f = some c ∧ P (k + i) c) ∧ (∀ f, f ∉ files → fs' f = fs f) := by
  induction files with
  | nil =>
    intro k fs txt _ _
    exact ⟨fs, by simp [indexText, pure, Except.pure], by simp, fun _ _ => rfl⟩
  | cons f rest ih =>
    intro k fs txt hk hnd
    rw [List.length_cons] at hk
    rw [List.nodup_cons] at hnd
    obtain ⟨s, c, h1, h2, h3⟩ := hcodec k (by omega) (fs f)
    obtain ⟨fs', e1, e2, e3⟩ := ih (k + 1) (Function.update fs f (some c)) (txt ++ compress home f ++ ['\n']) (by omega) hnd.2
    have hstep : writeEntry (some wr) true home o (fs, txt) (f, k) =
        .ok (Function.update fs f (some c), txt ++ compress home f ++ ['\n']) := by
      unfold writeEntry
      rw [h1]
      simp only [bind, Except.bind, h2, pure, Except.pure]
    refine ⟨fs', ?_, ?_, ?_⟩
    · rw [List.zipIdx_cons, List.foldlM_cons, hstep]
      simp only [bind, Except.bind]
      rw [e1]
      simp [indexText]
    · intro i g hg
      cases i with
      | zero =>
        simp only [List.getElem?_cons_zero, Option.some.injEq] at hg
        subst hg
        exact ⟨c, by rw [e3 f hnd.1, Function.update_self], h3⟩
      | succ i =>
        rw [List.getElem?_cons_succ] at hg
        have := e2 i g hg
        rwa [show k + 1 + i = k + (i + 1) by omega] at this
    · intro g hg
      rw [List.mem_cons, not_or] at hg
      rw [e3 g hg.2, Function.update_of_ne hg.1]

theorem mapM_ok {α β ε : Type} (g : α → Except ε β) (xs : List α) (P : ℕ → β → Prop)
    (h : ∀ i x, xs[i]? = some x → ∃ y, g x = .ok y ∧ P i y) :
    ∃ ys, xs.mapM g = .ok ys ∧ ys.length = xs.length ∧ ∀ i y, ys[i]? = some y → P i y := by
  induction xs generalizing P with
  | nil => exact ⟨[], rfl, rfl, by simp⟩
  | cons x t ih =>
    obtain ⟨y, h1, h2⟩ := h 0 x rfl
    obtain ⟨ys, e1, e2, e3⟩ := ih (fun i => P (i + 1)) (fun i z hz => h (i + 1) z (by simpa using hz))
    refine ⟨y :: ys, ?_, by simp [e2], ?_⟩
    · rw [List.mapM_cons, h1, e1]; rfl
    · intro i z hz
      cases i with
      | zero => simp at hz; rw [← hz]; exact h2
      | succ i => exact e3 i z (by simpa using hz)

/-! ## from_list -/

theorem cellOf_eq {α : Type} (get : Sp → List α) (z : α) (objs : List Sp) (p : List ℕ) (n k t i : ℕ) (o : Sp) (hn : t < n)
    (hp : p[t]? = some i) (ho : objs[i]? = some o) (hk : k < (get o).length) :
    some (cellOf get z objs p n (k * n + t)) = (get o)[k]? := by
  have h1 : (k * n + t) % n = t := by rw [Nat.mul_comm, Nat.mul_add_mod, Nat.mod_eq_of_lt hn]
  have h2 : (k * n + t) / n = k := by
    rw [Nat.mul_comm, Nat.mul_add_div (by omega), Nat.div_eq_of_lt hn, Nat.add_zero]
  unfold cellOf
  rw [h1, h2, List.getD_eq_getElem?_getD, hp, Option.getD_some, ho]
  simp only [List.getD_eq_getElem?_getD]
  rw [List.getElem?_eq_getElem hk, Option.getD_some]

theorem at3_cells {α : Type} (get : Sp → List α) (z : α) (objs : List Sp) (p : List ℕ) (r c n t s : ℕ) (o : Sp) (hn : t < n)
    (hp : p[t]? = some s) (ho : objs[s]? = some o) (hk : (get o).length = r * c) (i j : ℕ) :
    at3 (⟨[r, c, n], (List.range (r * c * n)).map fun k : ℕ => cellOf get z objs p n k⟩ : Arr α) i j t =
      at3 (⟨[r, c], get o⟩ : Arr α) i j 0 := by
  rw [at3_three, at3_two]
  by_cases hij : i < r ∧ j < c
  · rw [if_pos ⟨hij.1, hij.2, hn⟩, if_pos ⟨hij.1, hij.2, rfl⟩]
    have h1 : i * c + j < r * c := by
      have : (i + 1) * c ≤ r * c := Nat.mul_le_mul_right c hij.1
      nlinarith [hij.2]
    have h2 : (i * c + j) * n + t < r * c * n := by
      have : (i * c + j + 1) * n ≤ r * c * n := Nat.mul_le_mul_right n h1
      nlinarith
    rw [List.getElem?_map, List.getElem?_range h2, Option.map_some]
    exact cellOf_eq get z objs p n _ t s o hn hp ho (by rw [hk]; exact h1)
  · rw [if_neg (fun x => hij ⟨x.1, x.2.1⟩), if_neg (fun x => hij ⟨x.1, x.2.1⟩)]

end Verif.SpatialIndex
