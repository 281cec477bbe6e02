import Verif.Harmonics.Model

/-!
# C15 (flatten / expand), C24 (triangular layout), C57 (ascii files)
-/
set_option linter.unusedSectionVars false
namespace Verif.Harmonics
variable {K : Type} [Field K]

/-! ## n_harm -/

/-- C15: the closed formula is the number of pairs `m ≤ l ≤ lmax`, `m ≤ mmax`
(also for `mmax = lmax + 1`). -/
theorem nHarm_eq (lmax mmax : ℕ) (h : mmax ≤ lmax + 1) :
    nHarm lmax mmax = (lmPairs lmax mmax).length := by
  have hl := lmPairs_length lmax mmax h
  unfold nHarm
  have hl' : 2 * ((lmPairs lmax mmax).length : ℤ) + mmax * (mmax + 1) =
      2 * (mmax + 1) * (lmax + 1) := by exact_mod_cast hl
  have : ((lmax : ℤ) ^ 2 + 3 * lmax - (lmax - mmax) ^ 2 - (lmax - mmax)) =
      2 * (((lmPairs lmax mmax).length : ℤ) - 1) := by linarith
  rw [this, Int.mul_ediv_cancel_left _ (by norm_num)]; ring

/-- the rows `flatten` is expected to produce -/
def flatRows (h : Harm K) : List (Row K) :=
  (lmPairs h.lmax h.mmax).map fun p => ⟨p.1, p.2, h.clm p.1 p.2, h.slm p.1 p.2⟩

theorem flatten_loop (h : Harm K) (ps : List (ℕ × ℕ)) (done rest : List (Row K)) :
    ps.foldl (flattenStep h) (some (done.length, done ++ rest)) =
      if ps.length ≤ rest.length then
        some (done.length + ps.length, done ++ (ps.map fun p =>
          ⟨p.1, p.2, h.clm p.1 p.2, h.slm p.1 p.2⟩) ++ rest.drop ps.length)
      else none := by
  induction ps generalizing done rest with
  | nil => simp
  | cons p ps ih =>
    rw [List.foldl_cons]
    cases rest with
    | nil =>
      have : flattenStep h (some (done.length, done ++ [])) p = none := by
        unfold flattenStep; simp
      rw [this]
      have hn : ∀ qs : List (ℕ × ℕ), qs.foldl (flattenStep h) none = none := by
        intro qs
        induction qs with
        | nil => rfl
        | cons q qs ih => rw [List.foldl_cons]; exact ih
      rw [hn]; simp
    | cons r rest =>
      have : flattenStep h (some (done.length, done ++ r :: rest)) p =
          some ((done ++ [(⟨p.1, p.2, h.clm p.1 p.2, h.slm p.1 p.2⟩ : Row K)]).length,
            (done ++ [⟨p.1, p.2, h.clm p.1 p.2, h.slm p.1 p.2⟩]) ++ rest) := by
        unfold flattenStep; simp
      rw [this, ih]
      simp only [List.length_cons, List.length_append, List.length_nil, List.map_cons,
        List.append_assoc, List.cons_append, List.nil_append, List.drop_succ_cons]
      by_cases hle : ps.length ≤ rest.length
      · rw [if_pos hle, if_pos (by omega)]; congr 2; omega
      · rw [if_neg hle, if_neg (by omega)]

/-- C15: `flatten` succeeds and produces exactly one row per `(l,m)`, in order-major order,
filling the allocated rows completely. -/
theorem flatten_spec (h : Harm K) (hm : h.mmax ≤ h.lmax + 1) :
    flatten h = .ok ⟨h.lmax, h.mmax, h.nt, flatRows h, h.time, h.month⟩ := by
  have hn := nHarm_eq h.lmax h.mmax hm
  unfold flatten
  simp only
  rw [if_neg (by omega), hn, Int.toNat_natCast]
  have := flatten_loop h (lmPairs h.lmax h.mmax) []
    (List.replicate (lmPairs h.lmax h.mmax).length ⟨0, 0, fun _ => 0, fun _ => 0⟩)
  simp only [List.length_nil, List.nil_append, List.length_replicate, le_refl, if_true,
    Nat.zero_add] at this
  rw [this]
  simp [flatRows]

/-- C15: rows of `flatten`: each `(l,m)` of the lower triangle occurs in exactly one row and
that row holds its coefficients. -/
theorem flatten_rows (h : Harm K) (hm : h.mmax ≤ h.lmax + 1) (f : Flat K)
    (hf : flatten h = .ok f) :
    (f.rows.length : ℤ) = nHarm h.lmax h.mmax ∧
    (f.rows.map fun r => (r.l, r.m)).Nodup ∧
    (f.rows.Pairwise fun a b => a.m < b.m ∨ (a.m = b.m ∧ a.l < b.l)) ∧
    (∀ r ∈ f.rows, r.m ≤ r.l ∧ r.l ≤ h.lmax ∧ r.m ≤ h.mmax ∧ r.c = h.clm r.l r.m ∧
      r.s = h.slm r.l r.m) ∧
    (∀ l m, m ≤ l → l ≤ h.lmax → m ≤ h.mmax → ∃ r ∈ f.rows, r.l = l ∧ r.m = m) := by
  rw [flatten_spec h hm] at hf
  obtain rfl := Except.ok.inj hf
  have hmap : (flatRows h).map (fun r => (r.l, r.m)) = lmPairs h.lmax h.mmax := by
    unfold flatRows; rw [List.map_map]; exact List.map_id _
  refine ⟨?_, ?_, ?_, ?_, ?_⟩
  · rw [nHarm_eq _ _ hm]; simp [flatRows]
  · simp only; rw [hmap]; exact lmPairs_nodup _ _
  · simp only [flatRows]; rw [List.pairwise_map]; exact lmPairs_sorted _ _
  · intro r hr
    simp only [flatRows, List.mem_map] at hr
    obtain ⟨⟨l, m⟩, hp, rfl⟩ := hr
    have := (mem_lmPairs _ _ _ _).1 hp
    exact ⟨this.1, this.2.1, this.2.2, rfl, rfl⟩
  · intro l m h1 h2 h3
    refine ⟨⟨l, m, h.clm l m, h.slm l m⟩, ?_, rfl, rfl⟩
    simp only [flatRows, List.mem_map]
    exact ⟨(l, m), (mem_lmPairs _ _ _ _).2 ⟨h1, h2, h3⟩, rfl⟩

theorem expand_ok (f : Flat K)
    (hall : f.rows.all (fun r => decide (r.l ≤ f.lmax) && decide (r.m ≤ f.mmax)) = true) :
    expand f = .ok
      { lmax := f.lmax, mmax := f.mmax, nt := f.nt
        clm := fun l m => rowLoop f.rows (fun r => (r.l, r.m)) Row.c (fun _ _ => (0 : K)) (l, m)
        slm := fun l m => rowLoop f.rows (fun r => (r.l, r.m)) Row.s (fun _ _ => (0 : K)) (l, m)
        time := f.time, month := f.month } := by
  unfold expand; exact if_pos hall

/-- C15: `expand` after `flatten` restores the lower triangle and the dates and puts zeros
above the diagonal. -/
theorem expand_flatten (h : Harm K) (hm : h.mmax ≤ h.lmax + 1) :
    ∃ f g, flatten h = .ok f ∧ expand f = .ok g ∧
      g.lmax = h.lmax ∧ g.mmax = h.mmax ∧ g.nt = h.nt ∧ g.time = h.time ∧ g.month = h.month ∧
      ∀ l m t, l ≤ h.lmax → m ≤ h.mmax →
        g.clm l m t = (if m ≤ l then h.clm l m t else 0) ∧
        g.slm l m t = (if m ≤ l then h.slm l m t else 0) := by
  have hf := flatten_spec h hm
  obtain ⟨-, nd, -, hr, hex⟩ := flatten_rows h hm _ hf
  simp only at nd hr hex
  have hall : (flatRows h).all (fun r => decide (r.l ≤ h.lmax) && decide (r.m ≤ h.mmax)) = true := by
    rw [List.all_eq_true]
    intro r hrr
    have := hr r hrr
    simp [this.2.1, this.2.2.1]
  refine ⟨_, _, hf, expand_ok _ hall, rfl, rfl, rfl, rfl, rfl, ?_⟩
  intro l m t hl hmm
  simp only
  by_cases hlm : m ≤ l
  · obtain ⟨r, hrm, rfl, rfl⟩ := hex l m hlm hl hmm
    have h1 := rowLoop_nodup (flatRows h) (fun r => (r.l, r.m)) Row.c (fun _ _ => (0:K)) nd r hrm
    have h2 := rowLoop_nodup (flatRows h) (fun r => (r.l, r.m)) Row.s (fun _ _ => (0:K)) nd r hrm
    rw [if_pos hlm, if_pos hlm, h1, h2, (hr r hrm).2.2.2.1, (hr r hrm).2.2.2.2]
    exact ⟨rfl, rfl⟩
  · rw [if_neg hlm, if_neg hlm]
    have hno : ∀ r ∈ flatRows h, (r.l, r.m) ≠ (l, m) := by
      intro r hrm he
      simp only [Prod.mk.injEq] at he
      have := (hr r hrm).1
      omega
    rw [rowLoop_not_mem _ _ _ _ _ hno, rowLoop_not_mem _ _ _ _ _ hno]
    exact ⟨rfl, rfl⟩

/-- C15: `flatten` after `expand` is the identity on flattened objects in the layout written by
`flatten`. -/
theorem flatten_expand (f : Flat K) (hm : f.mmax ≤ f.lmax + 1)
    (hlay : f.rows.map (fun r => (r.l, r.m)) = lmPairs f.lmax f.mmax) :
    ∃ g, expand f = .ok g ∧ flatten g = .ok f := by
  have hnd : (f.rows.map fun r => (r.l, r.m)).Nodup := by rw [hlay]; exact lmPairs_nodup _ _
  have hall : f.rows.all (fun r => decide (r.l ≤ f.lmax) && decide (r.m ≤ f.mmax)) = true := by
    rw [List.all_eq_true]
    intro r hr
    have : (r.l, r.m) ∈ lmPairs f.lmax f.mmax := by
      rw [← hlay]; exact List.mem_map.2 ⟨r, hr, rfl⟩
    have := (mem_lmPairs _ _ _ _).1 this
    simp [this.2.1, this.2.2]
  refine ⟨_, expand_ok _ hall, ?_⟩
  rw [flatten_spec _ hm]
  congr 1
  obtain ⟨lmax, mmax, nt, rows, time, month⟩ := f
  simp only at hlay hm hnd ⊢
  congr 1
  unfold flatRows
  simp only
  rw [← hlay, List.map_map]
  conv_rhs => rw [← List.map_id rows]
  apply List.map_congr_left
  intro r hr
  have h1 := rowLoop_nodup rows (fun r => (r.l, r.m)) Row.c (fun _ _ => (0:K)) hnd r hr
  have h2 := rowLoop_nodup rows (fun r => (r.l, r.m)) Row.s (fun _ _ => (0:K)) hnd r hr
  simp only [Function.comp]
  rw [h1, h2]; rfl

theorem lmPairs_length_above (lmax d : ℕ) :
    (lmPairs lmax (lmax + d)).length = (lmPairs lmax lmax).length := by
  induction d with
  | zero => rfl
  | succ d ih => rw [← Nat.add_assoc, lmPairs_length_succ, ih]; omega

/-- C15 (deviation): for `mmax ≥ lmax + 2` the closed formula is too small and `flatten` raises
an error. -/
theorem flatten_fails (h : Harm K) (hm : h.lmax + 2 ≤ h.mmax) : ∃ e, flatten h = .error e := by
  obtain ⟨d, hd⟩ : ∃ d, h.mmax = h.lmax + (d + 2) := ⟨h.mmax - h.lmax - 2, by omega⟩
  have hlen := lmPairs_length_above h.lmax (d + 2)
  have hl := lmPairs_length h.lmax h.lmax (by omega)
  have hl' : 2 * ((lmPairs h.lmax h.lmax).length : ℤ) + h.lmax * (h.lmax + 1) =
      2 * (h.lmax + 1) * (h.lmax + 1) := by exact_mod_cast hl
  have hn : nHarm h.lmax h.mmax < (lmPairs h.lmax h.mmax).length := by
    rw [hd, hlen]
    unfold nHarm
    push_cast
    have e : ((h.lmax : ℤ) ^ 2 + 3 * h.lmax - (h.lmax - (h.lmax + (d + 2))) ^ 2
        - (h.lmax - (h.lmax + (d + 2)))) =
        2 * (((lmPairs h.lmax h.lmax).length : ℤ) - 1) - (d + 2) * (d + 1) := by linarith
    rw [e]
    have : (2 : ℤ) ≤ (d + 2) * (d + 1) := by nlinarith [Int.natCast_nonneg d]
    omega
  unfold flatten
  simp only
  split_ifs with h0
  · exact ⟨_, rfl⟩
  · have := flatten_loop h (lmPairs h.lmax h.mmax) []
      (List.replicate (nHarm h.lmax h.mmax).toNat ⟨0, 0, fun _ => 0, fun _ => 0⟩)
    simp only [List.length_nil, List.nil_append, List.length_replicate] at this
    rw [this, if_neg (by omega)]
    exact ⟨_, rfl⟩

-- a concrete object: lmax 2, mmax 1
example : ((flatten (K := ℚ) ⟨2, 1, none, fun l m _ => 10 * l + m, fun l m _ => l * m, [0], [1]⟩).toOption.map
    fun f => f.rows.map fun r => (r.l, r.m, r.c 0, r.s 0)) =
    some [(0,0,0,0), (1,0,10,0), (2,0,20,0), (1,1,11,1), (2,1,21,2)] := by decide +kernel

/-! ## C24 triangular layout -/

theorem mem_triPairs (lmax mmax l : ℕ) (m : ℤ) :
    (l, m) ∈ triPairs lmax mmax ↔ m.natAbs ≤ l ∧ l ≤ lmax ∧ m.natAbs ≤ mmax := by
  unfold triPairs
  simp only [List.mem_flatMap, List.mem_range, List.mem_map, List.mem_range'_1, Prod.mk.injEq]
  constructor
  · rintro ⟨k, h1, l', h2, rfl, rfl⟩; omega
  · rintro ⟨h1, h2, h3⟩; exact ⟨(m + mmax).toNat, by omega, l, by omega, rfl, by omega⟩

theorem triPairs_nodup (lmax mmax : ℕ) : (triPairs lmax mmax).Nodup := by
  unfold triPairs
  rw [List.nodup_flatMap]
  constructor
  · intro m _
    exact (List.nodup_range').map fun a b h => by simpa using h
  · apply List.pairwise_lt_range.imp
    intro a b hab
    simp only [Function.onFun, List.disjoint_left, List.mem_map]
    rintro x ⟨l, _, rfl⟩ ⟨l', _, h⟩
    simp at h; omega

/-- C24: all columns written lie inside the allocated `2 lmax + 1` columns. -/
theorem triangle_columns (lmax mmax l : ℕ) (m : ℤ) (h : (l, m) ∈ triPairs lmax mmax) :
    0 ≤ (lmax : ℤ) + m ∧ (lmax : ℤ) + m < 2 * lmax + 1 := by
  have := (mem_triPairs _ _ _ _).1 h
  omega

/-- C24: cosine coefficients of order `m` are found `m` columns right of the centre, sine
coefficients of order `m ≥ 1` are found `m` columns left of it. -/
theorem masked_array_entry (h : Harm K) (l m : ℕ) (h1 : m ≤ l) (h2 : l ≤ h.lmax) (h3 : m ≤ h.mmax) :
    toMaskedArray h (l, (h.lmax : ℤ) + m) = some (h.clm l m) ∧
    (1 ≤ m → toMaskedArray h (l, (h.lmax : ℤ) - m) = some (h.slm l m)) := by
  have nd : ((triPairs h.lmax h.mmax).map fun p => (p.1, (h.lmax : ℤ) + p.2)).Nodup := by
    refine (triPairs_nodup _ _).map ?_
    rintro ⟨a, b⟩ ⟨c, d⟩ he
    simp only [Prod.mk.injEq] at he
    ext <;> simp only <;> omega
  unfold toMaskedArray
  constructor
  · have := rowLoop_nodup (triPairs h.lmax h.mmax) (fun p => (p.1, (h.lmax : ℤ) + p.2))
      (fun p => some (if p.2 < 0 then h.slm p.1 p.2.natAbs else h.clm p.1 p.2.natAbs))
      (fun _ => none) nd (l, (m : ℤ)) ((mem_triPairs _ _ _ _).2 (by omega))
    simp only at this
    rw [this, if_neg (by omega)]; simp
  · intro hm
    have := rowLoop_nodup (triPairs h.lmax h.mmax) (fun p => (p.1, (h.lmax : ℤ) + p.2))
      (fun p => some (if p.2 < 0 then h.slm p.1 p.2.natAbs else h.clm p.1 p.2.natAbs))
      (fun _ => none) nd (l, -(m : ℤ)) ((mem_triPairs _ _ _ _).2 (by omega))
    simp only at this
    rw [sub_eq_add_neg, this, if_pos (by omega)]; simp

/-- C24: exactly the cells at most `min l mmax` columns from the centre are unmasked. -/
theorem masked_array_mask (h : Harm K) (l : ℕ) (col : ℤ) :
    (toMaskedArray h (l, col)).isSome ↔
      l ≤ h.lmax ∧ (col - h.lmax).natAbs ≤ l ∧ (col - h.lmax).natAbs ≤ h.mmax := by
  constructor
  · intro hs
    by_contra hc
    have : toMaskedArray h (l, col) = none := by
      unfold toMaskedArray
      apply rowLoop_not_mem
      rintro ⟨a, b⟩ hp he
      simp only [Prod.mk.injEq] at he
      have := (mem_triPairs _ _ _ _).1 hp
      apply hc
      obtain ⟨rfl, rfl⟩ := he
      omega
    rw [this] at hs; simp at hs
  · rintro ⟨h1, h2, h3⟩
    rcases le_or_gt (h.lmax : ℤ) col with hc | hc
    · have := (masked_array_entry h l (col - h.lmax).natAbs h2 h1 h3).1
      rw [show (h.lmax : ℤ) + ((col - h.lmax).natAbs : ℕ) = col by omega] at this
      rw [this]; rfl
    · have := (masked_array_entry h l (col - h.lmax).natAbs h2 h1 h3).2 (by omega)
      rw [show (h.lmax : ℤ) - ((col - h.lmax).natAbs : ℕ) = col by omega] at this
      rw [this]; rfl

/-- C24: the order-zero sine coefficients are not stored: two objects that differ only in
them (and above the diagonal) give the same array; all other coefficients can be read back. -/
theorem masked_array_lossless (h g : Harm K) (hl : h.lmax = g.lmax) (hm : h.mmax = g.mmax) :
    toMaskedArray h = toMaskedArray g ↔
      ∀ l m, m ≤ l → l ≤ h.lmax → m ≤ h.mmax →
        h.clm l m = g.clm l m ∧ (1 ≤ m → h.slm l m = g.slm l m) := by
  constructor
  · intro he l m h1 h2 h3
    have a := masked_array_entry h l m h1 h2 h3
    have b := masked_array_entry g l m h1 (hl ▸ h2) (hm ▸ h3)
    rw [he] at a
    rw [← hl] at b
    constructor
    · exact Option.some.inj (a.1.symm.trans b.1)
    · intro hm1; exact Option.some.inj ((a.2 hm1).symm.trans (b.2 hm1))
  · intro heq
    funext ⟨l, col⟩
    by_cases hc : l ≤ h.lmax ∧ (col - h.lmax).natAbs ≤ l ∧ (col - h.lmax).natAbs ≤ h.mmax
    · obtain ⟨h1, h2, h3⟩ := hc
      have a := masked_array_entry h l (col - h.lmax).natAbs h2 h1 h3
      have b := masked_array_entry g l (col - h.lmax).natAbs h2 (hl ▸ h1) (hm ▸ h3)
      have e := heq l (col - h.lmax).natAbs h2 h1 h3
      rcases le_or_gt (h.lmax : ℤ) col with hc | hc
      · have e1 : (h.lmax : ℤ) + ((col - h.lmax).natAbs : ℕ) = col := by omega
        rw [← hl] at b
        have a1 := a.1; have b1 := b.1
        rw [e1] at a1 b1
        rw [a1, b1, e.1]
      · have e1 : (h.lmax : ℤ) - ((col - h.lmax).natAbs : ℕ) = col := by omega
        rw [← hl] at b
        have a1 := a.2 (by omega); have b1 := b.2 (by omega)
        rw [e1] at a1 b1
        rw [a1, b1, e.2 (by omega)]
    · have a : toMaskedArray h (l, col) = none := by
        rw [← Option.not_isSome_iff_eq_none, masked_array_mask]; exact hc
      have b : toMaskedArray g (l, col) = none := by
        rw [← Option.not_isSome_iff_eq_none, masked_array_mask, ← hl, ← hm]; exact hc
      rw [a, b]

/-! ## C57 ascii files -/

theorem maxLoop_spec (xs : List ℕ) : (∀ x ∈ xs, x ≤ maxLoop xs) ∧ (maxLoop xs = 0 ∨ maxLoop xs ∈ xs) := by
  have gen : ∀ (xs : List ℕ) (acc : ℕ),
      let r := xs.foldl (fun acc x => if x > acc then x else acc) acc
      (∀ x ∈ xs, x ≤ r) ∧ acc ≤ r ∧ (r = acc ∨ r ∈ xs) := by
    intro xs
    induction xs with
    | nil => intro acc; simp
    | cons x xs ih =>
      intro acc
      have := ih (if x > acc then x else acc)
      simp only [List.foldl_cons] at this ⊢
      obtain ⟨a, b, c⟩ := this
      refine ⟨?_, ?_, ?_⟩
      · intro y hy
        rcases List.mem_cons.1 hy with rfl | hy
        · refine le_trans ?_ b; split_ifs <;> omega
        · exact a y hy
      · refine le_trans ?_ b; split_ifs <;> omega
      · rcases c with c | c
        · by_cases hx : x > acc
          · rw [if_pos hx] at c; right
            rw [if_pos hx]; rw [c]; exact List.mem_cons_self
          · rw [if_neg hx] at c; left; rw [if_neg hx]; exact c
        · right; exact List.mem_cons_of_mem _ c
  have := gen xs 0
  exact ⟨this.1, this.2.2⟩

/-- C57: an object written with `to_ascii` and read with `from_ascii` has the same degree and
order and, up to the rounding of the printed numbers, the same lower triangle; entries above the
diagonal are read as zero. -/
theorem ascii_roundtrip (fmt : K → K) (h : Harm K) (hm : h.mmax ≤ h.lmax) :
    let g := fromAscii (toAscii fmt h)
    g.lmax = h.lmax ∧ g.mmax = h.mmax ∧
    ∀ l m, l ≤ h.lmax → m ≤ h.mmax →
      g.clm l m 0 = (if m ≤ l then fmt (h.clm l m 0) else 0) ∧
      g.slm l m 0 = (if m ≤ l then fmt (h.slm l m 0) else 0) := by
  have hmap : (toAscii fmt h).map (fun r => (r.l, r.m)) = lmPairs h.lmax h.mmax := by
    unfold toAscii; rw [List.map_map]; exact List.map_id _
  have nd : ((toAscii fmt h).map (fun r => (r.l, r.m))).Nodup := by rw [hmap]; exact lmPairs_nodup _ _
  have hmem : ∀ r ∈ toAscii fmt h, r.m ≤ r.l ∧ r.l ≤ h.lmax ∧ r.m ≤ h.mmax ∧
      r.c = fmt (h.clm r.l r.m 0) ∧ r.s = fmt (h.slm r.l r.m 0) := by
    intro r hr
    simp only [toAscii, List.mem_map] at hr
    obtain ⟨⟨l, m⟩, hp, rfl⟩ := hr
    have := (mem_lmPairs _ _ _ _).1 hp
    exact ⟨this.1, this.2.1, this.2.2, rfl, rfl⟩
  have hex : ∀ l m, m ≤ l → l ≤ h.lmax → m ≤ h.mmax → ∃ r ∈ toAscii fmt h, r.l = l ∧ r.m = m := by
    intro l m h1 h2 h3
    refine ⟨⟨l, m, fmt (h.clm l m 0), fmt (h.slm l m 0)⟩, ?_, rfl, rfl⟩
    simp only [toAscii, List.mem_map]
    exact ⟨(l, m), (mem_lmPairs _ _ _ _).2 ⟨h1, h2, h3⟩, rfl⟩
  refine ⟨?_, ?_, ?_⟩
  · obtain ⟨a, b⟩ := maxLoop_spec ((toAscii fmt h).map Line.l)
    obtain ⟨r, hr, e1, -⟩ := hex h.lmax 0 (by omega) le_rfl (by omega)
    have := a r.l (List.mem_map_of_mem hr)
    show maxLoop _ = _
    apply le_antisymm
    · rcases b with b | b
      · omega
      · obtain ⟨r', hr', e'⟩ := List.mem_map.1 b
        rw [← e']; exact (hmem r' hr').2.1
    · omega
  · obtain ⟨a, b⟩ := maxLoop_spec ((toAscii fmt h).map Line.m)
    obtain ⟨r, hr, -, e1⟩ := hex h.lmax h.mmax hm le_rfl le_rfl
    have := a r.m (List.mem_map_of_mem hr)
    show maxLoop _ = _
    apply le_antisymm
    · rcases b with b | b
      · omega
      · obtain ⟨r', hr', e'⟩ := List.mem_map.1 b
        rw [← e']; exact (hmem r' hr').2.2.1
    · omega
  · intro l m hl hmm
    simp only [fromAscii]
    by_cases hlm : m ≤ l
    · obtain ⟨r, hrm, rfl, rfl⟩ := hex l m hlm hl hmm
      have h1 := rowLoop_nodup _ (fun r : Line K => (r.l, r.m)) (fun r => r.c) (fun _ => (0:K)) nd r hrm
      have h2 := rowLoop_nodup _ (fun r : Line K => (r.l, r.m)) (fun r => r.s) (fun _ => (0:K)) nd r hrm
      rw [if_pos hlm, if_pos hlm, h1, h2, (hmem r hrm).2.2.2.1, (hmem r hrm).2.2.2.2]
      exact ⟨rfl, rfl⟩
    · rw [if_neg hlm, if_neg hlm]
      have hno : ∀ r ∈ toAscii fmt h, (r.l, r.m) ≠ (l, m) := by
        intro r hrm he
        simp only [Prod.mk.injEq] at he
        have := (hmem r hrm).1
        omega
      rw [rowLoop_not_mem _ _ _ _ _ hno, rowLoop_not_mem _ _ _ _ _ hno]
      exact ⟨rfl, rfl⟩

example : (fromAscii (toAscii (K := ℚ) id
    ⟨3, 2, none, fun l m _ => 10 * l + m, fun l m _ => l * m, [], []⟩)).mmax = 2 := by decide +kernel

end Verif.Harmonics
