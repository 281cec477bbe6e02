import Verif.Containers.Model

/-!
# C102: looping over the months of an object
-/
namespace Verif.Containers

variable {A B D T : Type}

/-- a series: as many fields, second fields, dates and month numbers -/
structure Series (o : Obj D T) (ds ss : List D) (ts : List T) (ms : List Int) : Prop where
  data : o.data = .series ds
  other : o.other = .series ss
  time : o.time = .series ts
  month : o.month = .series ms
  lenS : ss.length = ds.length
  lenT : ts.length = ds.length
  lenM : ms.length = ds.length

/-- the months of a series, in order -/
def months : List D → List D → List T → List Int → List (Item D T)
  | d :: ds, s :: ss, t :: ts, m :: ms => ⟨d, s, t, m⟩ :: months ds ss ts ms
  | _, _, _, _ => []

/-- the object gives the items `l` one after the other, then ends -/
def Gives (nx : Nat → Next A) (l : List A) : Prop :=
  ∀ i, nx i = match l[i]? with | some a => .item a | none => .stop

theorem months_length (ds : List D) : ∀ (ss : List D) (ts : List T) (ms : List Int), ss.length = ds.length →
    ts.length = ds.length → ms.length = ds.length → (months ds ss ts ms).length = ds.length := by
  induction ds with
  | nil => intro ss ts ms _ _ _; simp [months]
  | cons d ds ih =>
    intro ss ts ms h1 h2 h3
    match ss, ts, ms with
    | s :: ss, t :: ts, m :: ms =>
      simp only [List.length_cons] at h1 h2 h3
      simp only [months, List.length_cons]
      rw [ih ss ts ms (by omega) (by omega) (by omega)]

theorem months_get (ds : List D) : ∀ (ss : List D) (ts : List T) (ms : List Int), ss.length = ds.length →
    ts.length = ds.length → ms.length = ds.length → ∀ i, i < ds.length →
    ∃ d s t m, ds[i]? = some d ∧ ss[i]? = some s ∧ ts[i]? = some t ∧ ms[i]? = some m ∧
      (months ds ss ts ms)[i]? = some ⟨d, s, t, m⟩ := by
  induction ds with
  | nil => intro ss ts ms _ _ _ i hi; simp at hi
  | cons d ds ih =>
    intro ss ts ms h1 h2 h3 i hi
    match ss, ts, ms with
    | s :: ss, t :: ts, m :: ms =>
      simp only [List.length_cons] at h1 h2 h3 hi
      cases i with
      | zero => exact ⟨d, s, t, m, rfl, rfl, rfl, rfl, rfl⟩
      | succ i =>
        obtain ⟨d', s', t', m', e1, e2, e3, e4, e5⟩ := ih ss ts ms (by omega) (by omega) (by omega) i (by omega)
        exact ⟨d', s', t', m', by simpa using e1, by simpa using e2, by simpa using e3, by simpa using e4,
          by simpa [months] using e5⟩

/-- **The `i`-th item is the `i`-th month**, for `harmonics` and `spatial` objects. -/
theorem nextField_series (o : Obj D T) (ds ss : List D) (ts : List T) (ms : List Int) (h : Series o ds ss ts ms) :
    Gives (nextField o) (months ds ss ts ms) := by
  intro i
  unfold nextField
  rw [h.data, h.other, h.time, h.month]
  unfold Arr.at
  by_cases hi : i < ds.length
  · obtain ⟨d, s, t, m, e1, e2, e3, e4, e5⟩ := months_get ds ss ts ms h.lenS h.lenT h.lenM i hi
    simp only [e1, e2, e3, e4, e5]
  · have hn : ds[i]? = none := List.getElem?_eq_none (by omega)
    have hm : (months ds ss ts ms)[i]? = none := List.getElem?_eq_none (by
      rw [months_length ds ss ts ms h.lenS h.lenT h.lenM]; omega)
    simp only [hn, hm]

/-- **The `i`-th item is the `i`-th month**, for `geocenter` objects. -/
theorem nextGeo_series (o : Obj D T) (ds ss : List D) (ts : List T) (ms : List Int) (h : Series o ds ss ts ms) :
    Gives (nextGeo o) (months ds ss ts ms) := by
  intro i
  unfold nextGeo
  rw [h.data, h.other, h.time, h.month]
  unfold Arr.at
  by_cases hi : i < ds.length
  · obtain ⟨d, s, t, m, e1, e2, e3, e4, e5⟩ := months_get ds ss ts ms h.lenS h.lenT h.lenM i hi
    simp only [e1, e2, e3, e4, e5]
  · have hn : ts[i]? = none := List.getElem?_eq_none (by have := h.lenT; omega)
    have hm : (months ds ss ts ms)[i]? = none := List.getElem?_eq_none (by
      rw [months_length ds ss ts ms h.lenS h.lenT h.lenM]; omega)
    simp only [hn, hm]

theorem rounds_quiet (nx : Nat → Next A) (l : List A) (h : Gives nx l) (f : A → List B) :
    ∀ (fuel pos : Nat), pos ≤ l.length → l.length - pos < fuel →
      rounds nx (quiet f) fuel pos = ((l.drop pos).flatMap f, l.length, .done) := by
  intro fuel
  induction fuel with
  | zero => intro pos _ hf; omega
  | succ n ih =>
    intro pos hp hf
    rw [rounds, h pos]
    rcases Nat.lt_or_ge pos l.length with hlt | hge
    · have hs : l[pos]? = some l[pos] := List.getElem?_eq_getElem hlt
      rw [hs]
      simp only [quiet]
      have := ih (pos + 1) (by omega) (by omega)
      rw [show rounds nx (quiet f) n (pos + 1) = _ from this, List.drop_eq_getElem_cons hlt, List.flatMap_cons]
    · have hs : l[pos]? = none := List.getElem?_eq_none hge
      rw [hs, List.drop_eq_nil_of_le hge, show pos = l.length by omega]
      rfl

/-- **A loop visits every month once, in order**, and leaves the position behind the last one. -/
theorem loop_once (nx : Nat → Next A) (l : List A) (h : Gives nx l) (f : A → List B) (fuel : Nat) (hf : l.length < fuel) :
    forLoop nx (quiet f) fuel = (l.flatMap f, l.length, .done) := by
  unfold forLoop
  rw [rounds_quiet nx l h f fuel 0 (by omega) (by omega), List.drop_zero]

theorem flatMap_pair (a : A) (l : List B) : l.flatMap (fun b => [(a, b)]) = l.map fun b => (a, b) := by
  induction l with
  | nil => rfl
  | cons x l ih => rw [List.flatMap_cons, ih]; rfl

/-- **A loop in a loop over a copy** visits all pairs of months. -/
theorem loop_copy (nx : Nat → Next A) (l : List A) (h : Gives nx l) (fuel : Nat) (hf : l.length < fuel) :
    (forLoop nx (innerCopy nx fuel) fuel).1 = (l.flatMap fun a => l.map fun b => (a, b)) ∧
    (forLoop nx (innerCopy nx fuel) fuel).2.2 = .done := by
  have e : innerCopy nx fuel = quiet fun a => l.map fun b => (a, b) := by
    funext a p
    show ((forLoop nx (quiet fun b => [(a, b)]) fuel).1, p) = (l.map fun b => (a, b), p)
    rw [loop_once nx l h _ fuel hf, flatMap_pair]
  rw [e, loop_once nx l h _ fuel hf]
  exact ⟨rfl, rfl⟩

/-- **Deviation: a loop in a loop over the same object** visits only the pairs of the first month: the inner loop moves the
position of the outer one behind the last month. -/
theorem loop_nested (nx : Nat → Next A) (a : A) (l : List A) (h : Gives nx (a :: l)) (fuel : Nat)
    (hf : (a :: l).length < fuel) :
    forLoop nx (inner nx fuel) fuel = ((a :: l).map fun b => (a, b), (a :: l).length, .done) := by
  obtain ⟨n, rfl⟩ : ∃ n, fuel = n + 2 := ⟨fuel - 2, by simp at hf; omega⟩
  have hin : inner nx (n + 2) a 1 = ((a :: l).map fun b => (a, b), (a :: l).length) := by
    unfold inner
    rw [loop_once nx (a :: l) h _ (n + 2) hf]
    rw [flatMap_pair]
  unfold forLoop
  rw [rounds, h 0]
  simp only [List.getElem?_cons_zero]
  rw [hin, rounds, h (a :: l).length, List.getElem?_eq_none (Nat.le_refl _)]
  simp

/-- **Deviation: looking at the first month inside of a loop** over an object of two months or more makes the loop endless:
the position is set back to the second month in every round. -/
theorem loop_peek (nx : Nat → Next A) (a b : A) (l : List A) (h : Gives nx (a :: b :: l)) (fuel : Nat) :
    (forLoop nx (peek nx) fuel).2.2 = .running := by
  have h1 : ∀ x p, peek nx x p = ([(x, a)], 1) := by
    intro x p
    unfold peek
    rw [h 0]
    rfl
  have key : ∀ n, (rounds nx (peek nx) n 1).2.2 = .running := by
    intro n
    induction n with
    | zero => rfl
    | succ n ih =>
      rw [rounds, h 1]
      simp only [List.getElem?_cons_succ, List.getElem?_cons_zero]
      rw [h1]
      exact ih
  unfold forLoop
  cases fuel with
  | zero => rfl
  | succ n =>
    rw [rounds, h 0]
    simp only [List.getElem?_cons_zero]
    rw [h1]
    exact key n

/-- the neighbours of a list taken in pairs -/
def pairs : List A → List (A × A)
  | a :: b :: l => (a, b) :: pairs l
  | _ => []

/-- **`zip(obj, obj)`** pairs each odd month with the next one; of an odd number of months the last is lost. -/
theorem zip_self (nx : Nat → Next A) (l : List A) (h : Gives nx l) (fuel : Nat) (hf : l.length < fuel) :
    zipSelf nx fuel 0 = pairs l := by
  have key : ∀ (n pos : Nat), l.length - pos < n → zipSelf nx n pos = pairs (l.drop pos) := by
    intro n
    induction n with
    | zero => intro pos hp; omega
    | succ n ih =>
      intro pos hp
      rw [zipSelf, h pos]
      rcases Nat.lt_or_ge pos l.length with hlt | hge
      · have hs : l[pos]? = some l[pos] := List.getElem?_eq_getElem hlt
        rw [hs, h (pos + 1), List.drop_eq_getElem_cons hlt]
        rcases Nat.lt_or_ge (pos + 1) l.length with hlt2 | hge2
        · have hs2 : l[pos + 1]? = some l[pos + 1] := List.getElem?_eq_getElem hlt2
          rw [hs2, List.drop_eq_getElem_cons hlt2]
          simp only [pairs]
          rw [ih (pos + 2) (by omega)]
        · rw [List.getElem?_eq_none hge2, List.drop_eq_nil_of_le hge2]
          rfl
      · rw [List.getElem?_eq_none hge, List.drop_eq_nil_of_le hge]
        rfl
  rw [key fuel 0 (by omega), List.drop_zero]

/-! ## Objects that are not series -/

/-- **Deviation: a single field** has no month to loop over: the body is never run, without any notice. -/
theorem single_skipped (o : Obj D T) (d : D) (h : o.data = .single d) (body : Item D T → Nat → List B × Nat) (fuel : Nat)
    (hf : 0 < fuel) : forLoop (nextField o) body fuel = ([], 0, .done) := by
  obtain ⟨n, rfl⟩ : ∃ n, fuel = n + 1 := ⟨fuel - 1, by omega⟩
  unfold forLoop
  rw [rounds]
  unfold nextField
  rw [h]
  rfl

/-- **Deviation: a series without dates** cannot be looped over: the missing dates raise a `TypeError` at the first month. -/
theorem undated_raises (o : Obj D T) (d s : D) (ds ss : List D) (h1 : o.data = .series (d :: ds)) (h2 : o.other = .series (s :: ss))
    (h3 : o.time = .absent) (body : Item D T → Nat → List B × Nat) (fuel : Nat) (hf : 0 < fuel) :
    forLoop (nextField o) body fuel = ([], 0, .raised .type) := by
  obtain ⟨n, rfl⟩ : ∃ n, fuel = n + 1 := ⟨fuel - 1, by omega⟩
  unfold forLoop
  rw [rounds]
  unfold nextField
  rw [h1, h2, h3]
  rfl

/-- **Deviation: a grid series without a mask** cannot be looped over either. -/
theorem unmasked_raises (o : Obj D T) (d : D) (ds : List D) (h1 : o.data = .series (d :: ds)) (h2 : o.other = .absent)
    (body : Item D T → Nat → List B × Nat) (fuel : Nat) (hf : 0 < fuel) :
    forLoop (nextField o) body fuel = ([], 0, .raised .type) := by
  obtain ⟨n, rfl⟩ : ∃ n, fuel = n + 1 := ⟨fuel - 1, by omega⟩
  unfold forLoop
  rw [rounds]
  unfold nextField
  rw [h1, h2]
  rfl

/-- **Fewer dates than fields**: a loop over a `harmonics` or `spatial` object raises an `IndexError` after the dated ones,
one over a `geocenter` object ends there without notice. -/
theorem short_dates (o : Obj D T) (ds ss : List D) (ts : List T) (ms : List Int) (hd : o.data = .series ds)
    (hs : o.other = .series ss) (ht : o.time = .series ts) (hm : o.month = .series ms) (hl : ts.length < ds.length)
    (hl2 : ts.length < ss.length) :
    nextField o ts.length = .raise .index ∧ nextGeo o ts.length = .stop := by
  have e1 : ds[ts.length]? = some ds[ts.length] := List.getElem?_eq_getElem hl
  have e2 : ss[ts.length]? = some ss[ts.length] := List.getElem?_eq_getElem hl2
  have e3 : ts[ts.length]? = none := List.getElem?_eq_none (Nat.le_refl _)
  constructor
  · unfold nextField
    rw [hd, hs, ht, hm]
    simp only [Arr.at, e1, e2, e3]
  · unfold nextGeo
    rw [hd, hs, ht, hm]
    simp only [Arr.at, e3]

/-! ## Length and text -/

/-- **The length** of a series with a month number other than zero is the number of months: as many as a loop visits. -/
theorem len_series (l : List Int) (m : Int) (hm : m ∈ l) (h0 : m ≠ 0) : lenOf (.array l) = .ok l.length := by
  simp only [lenOf]
  rw [if_pos]
  exact List.any_eq_true.2 ⟨m, hm, by simpa using h0⟩

/-- **Deviation**: the length of an object of a single month raises a `TypeError`. -/
theorem len_scalar (m : Int) (h : m ≠ 0) : lenOf (.scalar m) = .error .type := by simp [lenOf, h]

/-- **Deviation**: an object made with `zeros_like` has length zero, however many months it has. -/
theorem len_zeros (o : Month) : lenOf (zerosMonth o) = .ok 0 := by
  cases o with
  | absent => rfl
  | scalar m => rfl
  | array l =>
    simp only [zerosMonth, lenOf, List.any_map]
    rw [if_neg]
    simp [Function.comp]
  | list l =>
    simp only [zerosMonth, lenOf, List.any_map]
    rw [if_neg]
    simp [Function.comp]

/-- **Deviation**: the text of a series of two months or more cannot be shown (`ValueError`), nor that of a single month
(`TypeError`). -/
theorem str_raises (a b : Int) (l : List Int) (m : Int) (h : m ≠ 0) :
    monthsShown (.array (a :: b :: l)) = .error .value ∧ monthsShown (.scalar m) = .error .type := by
  exact ⟨rfl, by simp [monthsShown, h]⟩

theorem foldl_min (l : List Int) : ∀ a, l.foldl min a ≤ a ∧ (∀ x ∈ l, l.foldl min a ≤ x) ∧
    (l.foldl min a = a ∨ l.foldl min a ∈ l) := by
  induction l with
  | nil => intro a; simp
  | cons b l ih =>
    intro a
    obtain ⟨h1, h2, h3⟩ := ih (min a b)
    simp only [List.foldl_cons]
    refine ⟨by omega, ?_, ?_⟩
    · intro x hx
      rcases List.mem_cons.1 hx with rfl | hx
      · omega
      · exact h2 x hx
    · rcases h3 with h3 | h3
      · by_cases hab : a ≤ b
        · left; omega
        · right; rw [h3, show min a b = b by omega]; exact List.mem_cons_self
      · right; exact List.mem_cons_of_mem _ h3

theorem foldl_max (l : List Int) : ∀ a, a ≤ l.foldl max a ∧ (∀ x ∈ l, x ≤ l.foldl max a) ∧
    (l.foldl max a = a ∨ l.foldl max a ∈ l) := by
  induction l with
  | nil => intro a; simp
  | cons b l ih =>
    intro a
    obtain ⟨h1, h2, h3⟩ := ih (max a b)
    simp only [List.foldl_cons]
    refine ⟨by omega, ?_, ?_⟩
    · intro x hx
      rcases List.mem_cons.1 hx with rfl | hx
      · omega
      · exact h2 x hx
    · rcases h3 with h3 | h3
      · by_cases hab : b ≤ a
        · left; omega
        · right; rw [h3, show max a b = b by omega]; exact List.mem_cons_self
      · right; exact List.mem_cons_of_mem _ h3

/-- the text of an object whose months are a Python list shows the first and the last month -/
theorem str_list (l : List Int) (hl : l ≠ []) :
    ∃ lo hi, monthsShown (.list l) = .ok (some (lo, hi)) ∧ lo ∈ l ∧ hi ∈ l ∧ ∀ m ∈ l, lo ≤ m ∧ m ≤ hi := by
  cases l with
  | nil => exact absurd rfl hl
  | cons a t =>
    obtain ⟨h1, h2, h3⟩ := foldl_min t a
    obtain ⟨g1, g2, g3⟩ := foldl_max t a
    refine ⟨t.foldl min a, t.foldl max a, rfl, ?_, ?_, ?_⟩
    · rcases h3 with h3 | h3
      · rw [h3]; exact List.mem_cons_self
      · exact List.mem_cons_of_mem _ h3
    · rcases g3 with g3 | g3
      · rw [g3]; exact List.mem_cons_self
      · exact List.mem_cons_of_mem _ g3
    · intro m hm
      rcases List.mem_cons.1 hm with rfl | hm
      · exact ⟨h1, g1⟩
      · exact ⟨h2 m hm, g2 m hm⟩

/-! ## Concrete cases -/

/-- three months -/
def ex : Obj Nat Nat := ⟨.series [10, 20, 30], .series [1, 2, 3], .series [2002, 2003, 2004], .series [4, 16, 28]⟩

example : Series ex [10, 20, 30] [1, 2, 3] [2002, 2003, 2004] [4, 16, 28] := ⟨rfl, rfl, rfl, rfl, rfl, rfl, rfl⟩
example : (forLoop (nextField ex) (quiet fun a => [a.month]) 10) = ([4, 16, 28], 3, .done) := by decide
example : ((forLoop (nextField ex) (inner (nextField ex) 10) 10).1.map fun p => (p.1.month, p.2.month)) =
    [(4, 4), (4, 16), (4, 28)] := by decide
example : (forLoop (nextField ex) (peek (nextField ex)) 50).2.2 = .running := by decide
example : (zipSelf (nextField ex) 10 0).map (fun p => (p.1.month, p.2.month)) = [(4, 16)] := by decide
example : lenOf (.array [4, 16, 28]) = .ok 3 ∧ lenOf (zerosMonth (.array [4, 16, 28])) = .ok 0 := ⟨rfl, rfl⟩
example : monthsShown (.list [16, 4, 28]) = .ok (some (4, 28)) := rfl

end Verif.Containers
