import Mathlib.Data.List.Nodup
import Mathlib.Data.List.Range
import Mathlib.Logic.Function.Basic
import Mathlib.Tactic.Ring
import Mathlib.Tactic.Linarith

/-!
# Loops that write into arrays

An array is a total function of its index; a `for` loop is a left fold over the
list of loop indices.
-/
namespace Verif

section
variable {κ A : Type} [DecidableEq κ]

/-- `for k in ks: arr[k] = val(k)` -/
def writeLoop (ks : List κ) (val : κ → A) (arr : κ → A) : κ → A :=
  ks.foldl (fun a k => Function.update a k (val k)) arr

theorem writeLoop_apply (ks : List κ) (val : κ → A) (arr : κ → A) (k : κ) :
    writeLoop ks val arr k = if k ∈ ks then val k else arr k := by
  unfold writeLoop
  induction ks generalizing arr with
  | nil => simp
  | cons x ks ih =>
    rw [List.foldl_cons, ih]
    by_cases h : k ∈ ks
    · simp [h]
    · rw [if_neg h]
      by_cases hx : k = x
      · subst hx; simp
      · rw [Function.update_of_ne hx]; simp [h, hx]

/-- `for k in ks: arr[k] = f(k, arr[k])` -/
def updateLoop (ks : List κ) (f : κ → A → A) (arr : κ → A) : κ → A :=
  ks.foldl (fun a k => Function.update a k (f k (a k))) arr

theorem updateLoop_apply (ks : List κ) (hn : ks.Nodup) (f : κ → A → A) (arr : κ → A) (k : κ) :
    updateLoop ks f arr k = if k ∈ ks then f k (arr k) else arr k := by
  unfold updateLoop
  induction ks generalizing arr with
  | nil => simp
  | cons x ks ih =>
    rw [List.nodup_cons] at hn
    rw [List.foldl_cons, ih hn.2]
    by_cases hx : k = x
    · subst hx; simp [hn.1]
    · rw [Function.update_of_ne hx]; simp [hx]

/-- `for r in rows: arr[key(r)] = val(r)`: the last row with a key wins. -/
def rowLoop {R : Type} (rows : List R) (key : R → κ) (val : R → A) (arr : κ → A) : κ → A :=
  rows.foldl (fun a r => Function.update a (key r) (val r)) arr

theorem rowLoop_not_mem {R : Type} (rows : List R) (key : R → κ) (val : R → A) (arr : κ → A) (k : κ)
    (h : ∀ r ∈ rows, key r ≠ k) : rowLoop rows key val arr k = arr k := by
  unfold rowLoop
  induction rows generalizing arr with
  | nil => rfl
  | cons x rows ih =>
    rw [List.foldl_cons, ih _ (fun r hr => h r (List.mem_cons_of_mem _ hr)),
      Function.update_of_ne (h x List.mem_cons_self).symm]

theorem rowLoop_append {R : Type} (r1 r2 : List R) (key : R → κ) (val : R → A) (arr : κ → A) :
    rowLoop (r1 ++ r2) key val arr = rowLoop r2 key val (rowLoop r1 key val arr) :=
  List.foldl_append

theorem rowLoop_last {R : Type} (pre post : List R) (r : R) (key : R → κ) (val : R → A) (arr : κ → A)
    (h : ∀ r' ∈ post, key r' ≠ key r) :
    rowLoop (pre ++ r :: post) key val arr (key r) = val r := by
  rw [rowLoop_append]
  have : rowLoop (r :: post) key val (rowLoop pre key val arr) =
      rowLoop post key val (Function.update (rowLoop pre key val arr) (key r) (val r)) := rfl
  rw [this, rowLoop_not_mem _ _ _ _ _ h]
  simp

/-- with distinct keys every row is found again -/
theorem rowLoop_nodup {R : Type} (rows : List R) (key : R → κ) (val : R → A) (arr : κ → A)
    (hn : (rows.map key).Nodup) (r : R) (hr : r ∈ rows) :
    rowLoop rows key val arr (key r) = val r := by
  obtain ⟨pre, post, rfl⟩ := List.append_of_mem hr
  apply rowLoop_last
  rw [List.map_append, List.map_cons, List.nodup_append] at hn
  intro r' hr' he
  have := (List.nodup_cons.1 hn.2.1).1
  exact this (he ▸ List.mem_map_of_mem hr')
end

/-! ## loops over degree and order -/

/-- `for m in range(0,mmax+1): for l in range(m,lmax+1)`, as the list of visited `(l,m)` -/
def lmPairs (lmax mmax : ℕ) : List (ℕ × ℕ) :=
  (List.range (mmax + 1)).flatMap fun m => (List.range' m (lmax + 1 - m)).map fun l => (l, m)

theorem mem_lmPairs (lmax mmax l m : ℕ) :
    (l, m) ∈ lmPairs lmax mmax ↔ m ≤ l ∧ l ≤ lmax ∧ m ≤ mmax := by
  unfold lmPairs
  simp only [List.mem_flatMap, List.mem_range, List.mem_map, List.mem_range'_1, Prod.mk.injEq]
  constructor
  · rintro ⟨m', h1, l', h2, rfl, rfl⟩; omega
  · rintro ⟨h1, h2, h3⟩; exact ⟨m, by omega, l, by omega, rfl, rfl⟩

theorem lmPairs_nodup (lmax mmax : ℕ) : (lmPairs lmax mmax).Nodup := by
  unfold lmPairs
  rw [List.nodup_flatMap]
  constructor
  · intro m _
    exact (List.nodup_range').map fun a b h => by simpa using h
  · apply List.pairwise_lt_range.imp
    intro a b hab
    simp only [Function.onFun, List.disjoint_left, List.mem_map]
    rintro x ⟨l, _, rfl⟩ ⟨l', _, h⟩
    simp at h; omega

/-- Order-major enumeration: orders never decrease and degrees increase within an order. -/
theorem lmPairs_sorted (lmax mmax : ℕ) :
    (lmPairs lmax mmax).Pairwise fun a b => a.2 < b.2 ∨ (a.2 = b.2 ∧ a.1 < b.1) := by
  unfold lmPairs
  rw [List.pairwise_flatMap]
  constructor
  · intro m _
    rw [List.pairwise_map]
    exact (List.pairwise_lt_range' _).imp fun h => Or.inr ⟨rfl, h⟩
  · apply List.pairwise_lt_range.imp
    intro a b hab x hx y hy
    simp only [List.mem_map] at hx hy
    obtain ⟨_, _, rfl⟩ := hx
    obtain ⟨_, _, rfl⟩ := hy
    exact Or.inl hab

theorem lmPairs_length_succ (lmax mmax : ℕ) :
    (lmPairs lmax (mmax + 1)).length = (lmPairs lmax mmax).length + (lmax - mmax) := by
  unfold lmPairs
  rw [List.range_succ, List.flatMap_append]
  simp

/-- number of pairs, twice -/
theorem lmPairs_length (lmax mmax : ℕ) (h : mmax ≤ lmax + 1) :
    2 * (lmPairs lmax mmax).length + mmax * (mmax + 1) = 2 * (mmax + 1) * (lmax + 1) := by
  induction mmax with
  | zero => unfold lmPairs; simp
  | succ n ih =>
    have := ih (by omega)
    rw [lmPairs_length_succ]
    obtain ⟨k, hk⟩ : ∃ k, lmax = n + k := ⟨lmax - n, by omega⟩
    subst hk
    have : n + k - n = k := by omega
    rw [this]
    nlinarith

end Verif
