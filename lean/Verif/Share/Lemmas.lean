import Verif.Share.Spec
import Mathlib.Tactic.SplitIfs

/-! # Simulation between memory and values -/
namespace Verif.Share
open Verif.Harmonics

set_option linter.unusedSectionVars false

variable {K : Type} [Field K]

/-- addresses of an object -/
def Obj.pair (o : Obj) : ℕ × ℕ := (o.c, o.s)

/-- no common address -/
def Disj (p q : ℕ × ℕ) : Prop := p.1 ≠ q.1 ∧ p.1 ≠ q.2 ∧ p.2 ≠ q.1 ∧ p.2 ≠ q.2

theorem Disj.symm {p q : ℕ × ℕ} (h : Disj p q) : Disj q p :=
  ⟨h.1.symm, h.2.2.1.symm, h.2.1.symm, h.2.2.2.symm⟩

/-- contents at a pair of addresses -/
def cont (buf : ℕ → Arr K) (p : ℕ × ℕ) : Arr K × Arr K := (buf p.1, buf p.2)

/-- a pair of allocated, different addresses -/
def Ok (next : ℕ) (p : ℕ × ℕ) : Prop := p.1 < next ∧ p.2 < next ∧ p.1 ≠ p.2

/-- a dictionary in memory and on values -/
def DSim (objs : List Obj) (ka : List (ℕ × ℕ)) (d : Obj) (e : VDict) : Prop :=
  d.lmax = e.lmax ∧ d.mmax = e.mmax ∧ d.nt = e.nt ∧ d.time = e.time ∧ d.month = e.month ∧
  match e.src with
  | .live i => ∃ o, objs[i]? = some o ∧ d.pair = o.pair
  | .kept k => ka[k]? = some d.pair

/-- the simulation relation; `ka` are the addresses of kept coefficients -/
structure SimK (m : Mem K) (v : VState K) (ka : List (ℕ × ℕ)) : Prop where
  objs : m.objs.map (view m.buf) = v.objs
  kept : ka.map (cont m.buf) = v.kept
  dicts : List.Forall₂ (DSim m.objs ka) m.dicts v.dicts
  dist : (m.objs.map Obj.pair ++ ka).Pairwise Disj
  ok : ∀ p ∈ m.objs.map Obj.pair ++ ka, Ok m.next p

def Sim (m : Mem K) (v : VState K) : Prop := ∃ ka, SimK m v ka

theorem sim_empty : Sim (Mem.empty : Mem K) VState.empty :=
  ⟨[], rfl, rfl, .nil, .nil, by simp [Mem.empty]⟩

theorem split_at {α : Type} {l : List α} {i : ℕ} {o : α} (h : l[i]? = some o) :
    ∃ l1 l2, l = l1 ++ o :: l2 ∧ l1.length = i := by
  obtain ⟨hi, rfl⟩ := List.getElem?_eq_some_iff.1 h
  refine ⟨l.take i, l.drop (i + 1), ?_, by simp; omega⟩
  simp

theorem set_at {α : Type} (l1 l2 : List α) (o x : α) :
    (l1 ++ o :: l2).set l1.length x = l1 ++ x :: l2 := by simp

theorem view_upd {buf : ℕ → Arr K} {o : Obj} {a : ℕ} {x : Arr K} (h1 : o.c ≠ a) (h2 : o.s ≠ a) :
    view (Function.update buf a x) o = view buf o := by
  simp [view, Function.update_of_ne h1, Function.update_of_ne h2]

theorem cont_upd {buf : ℕ → Arr K} {p : ℕ × ℕ} {a : ℕ} {x : Arr K} (h1 : p.1 ≠ a) (h2 : p.2 ≠ a) :
    cont (Function.update buf a x) p = cont buf p := by
  simp [cont, Function.update_of_ne h1, Function.update_of_ne h2]

/-- the dictionaries see what the values show -/
theorem dict_view {m : Mem K} {v : VState K} {ka} (S : SimK m v ka) {d : Obj} {e : VDict}
    (h : DSim m.objs ka d e) : view m.buf d = v.dict e := by
  obtain ⟨h1, h2, h3, h4, h5, h6⟩ := h
  have hs : v.source e.src = (m.buf d.c, m.buf d.s) := by
    cases hsrc : e.src with
    | live i =>
      rw [hsrc] at h6
      obtain ⟨o, ho, hp⟩ := h6
      have : v.objs[i]? = some (view m.buf o) := by rw [← S.objs]; simp [ho]
      simp only [Obj.pair, Prod.mk.injEq] at hp
      simp [VState.source, this, view, hp]
    | kept k =>
      rw [hsrc] at h6
      have : v.kept[k]? = some (cont m.buf d.pair) := by
        rw [← S.kept]; simp only [List.getElem?_map]
        rw [show ka[k]? = some d.pair from h6]; rfl
      simp [VState.source, List.getD, this, cont, Obj.pair]
  simp [view, VState.dict, h1, h2, h3, h4, h5, hs]

theorem sim_observe {m : Mem K} {v : VState K} (S : Sim m v) : observe m = v.observe := by
  obtain ⟨ka, S⟩ := S
  have hd : m.dicts.map (view m.buf) = v.dicts.map v.dict := by
    have : ∀ {l : List Obj} {l' : List VDict}, List.Forall₂ (DSim m.objs ka) l l' →
        l.map (view m.buf) = l'.map v.dict := by
      intro l l' h
      induction h with
      | nil => rfl
      | cons h _ ih => simp [dict_view S h, ih]
    exact this S.dicts
  simp [observe, VState.observe, S.objs, hd]

/-! ## the kinds of steps -/

theorem DSim.mono {objs objs' : List Obj} {ka ka' : List (ℕ × ℕ)} {d : Obj} {e : VDict}
    (h : DSim objs ka d e)
    (ho : ∀ (i : ℕ) (o : Obj), objs[i]? = some o → ∃ o', objs'[i]? = some o' ∧ o.pair = o'.pair)
    (hk : ∀ (k : ℕ) (p : ℕ × ℕ), ka[k]? = some p → ka'[k]? = some p) : DSim objs' ka' d e := by
  obtain ⟨h1, h2, h3, h4, h5, h6⟩ := h
  refine ⟨h1, h2, h3, h4, h5, ?_⟩
  cases hs : e.src with
  | live i =>
    rw [hs] at h6
    obtain ⟨o, a, b⟩ := h6
    obtain ⟨o', a', b'⟩ := ho i o a
    exact ⟨o', a', b.trans b'⟩
  | kept k =>
    rw [hs] at h6
    exact hk k _ h6

theorem sim_newObj {m : Mem K} {v : VState K} (S : Sim m v) (h : Harm K) :
    Sim (newObj m h) { v with objs := v.objs ++ [h] } := by
  obtain ⟨ka, S⟩ := S
  have hne : ∀ p ∈ m.objs.map Obj.pair ++ ka,
      p.1 ≠ m.next ∧ p.2 ≠ m.next ∧ p.1 ≠ m.next + 1 ∧ p.2 ≠ m.next + 1 := by
    intro p hp
    have := S.ok p hp
    unfold Ok at this
    omega
  refine ⟨ka, ?_, ?_, ?_, ?_, ?_⟩
  · have : (newObj m h).objs.map (view (newObj m h).buf)
        = m.objs.map (view m.buf) ++ [h] := by
      simp only [newObj, alloc, List.map_append, List.map_cons, List.map_nil]
      congr 1
      · apply List.map_congr_left
        intro o ho
        obtain ⟨a, b, c, d⟩ := hne o.pair (by simp; exact .inl ⟨o, ho, rfl⟩)
        rw [view_upd c d, view_upd a b]
      · simp [view]
    rw [this, S.objs]
  · rw [← S.kept]
    apply List.map_congr_left
    intro p hp
    obtain ⟨a, b, c, d⟩ := hne p (by simp [hp])
    show cont (Function.update (Function.update m.buf m.next h.clm) (m.next + 1) h.slm) p = _
    rw [cont_upd c d, cont_upd a b]
  · refine S.dicts.imp fun d e hd => hd.mono ?_ fun _ _ h => h
    intro i o ho
    refine ⟨o, ?_, rfl⟩
    have hi := (List.getElem?_eq_some_iff.1 ho).1
    show (m.objs ++ _)[i]? = _
    rw [List.getElem?_append_left hi, ho]
  · have hp : ((newObj m h).objs.map Obj.pair ++ ka).Perm
        ((m.next, m.next + 1) :: (m.objs.map Obj.pair ++ ka)) := by
      simp only [newObj, alloc, List.map_append, List.map_cons, List.map_nil, Obj.pair,
        List.append_assoc]
      exact List.perm_middle
    rw [hp.pairwise_iff Disj.symm]
    refine List.Pairwise.cons ?_ S.dist
    intro p hp
    obtain ⟨a, b, c, d⟩ := hne p hp
    exact ⟨a.symm, b.symm, c.symm, d.symm⟩
  · intro p hp
    have hp' : p = (m.next, m.next + 1) ∨ p ∈ m.objs.map Obj.pair ++ ka := by
      simp only [newObj, alloc, List.map_append, List.map_cons, List.map_nil, Obj.pair,
        List.mem_append, List.mem_cons, List.not_mem_nil, or_false] at hp ⊢
      tauto
    show Ok (m.next + 1 + 1) p
    rcases hp' with rfl | hp'
    · exact ⟨by simp; omega, by simp, by simp⟩
    · obtain ⟨a, b, c⟩ := S.ok p hp'
      exact ⟨by omega, by omega, c⟩

/-- other coefficients -/
def recoef (h : Harm K) (c s : Arr K) : Harm K := { h with clm := c, slm := s }

/-- writing at one pair of a list of disjoint pairs -/
theorem perm_front {m : Mem K} {ka : List (ℕ × ℕ)} {l1 l2 : List Obj} {o : Obj}
    (hl : m.objs = l1 ++ o :: l2) :
    (m.objs.map Obj.pair ++ ka).Perm (o.pair :: (l1.map Obj.pair ++ (l2.map Obj.pair ++ ka))) := by
  rw [hl]
  simp only [List.map_append, List.map_cons, List.append_assoc, List.cons_append]
  exact List.perm_middle

theorem sim_inPlace {m : Mem K} {v : VState K} (S : Sim m v) {i : ℕ} {o : Obj}
    (ho : m.objs[i]? = some o) (f g : (ℕ → Arr K) → Arr K) :
    Sim (inPlace m o f g) { v with objs := v.objs.set i (recoef (view m.buf o) (f m.buf)
      (g (Function.update m.buf o.c (f m.buf)))) } := by
  obtain ⟨ka, S⟩ := S
  obtain ⟨l1, l2, hl, rfl⟩ := split_at ho
  have hperm := perm_front (ka := ka) hl
  have hd := (hperm.pairwise_iff Disj.symm).1 S.dist
  rw [List.pairwise_cons] at hd
  have hown : o.c ≠ o.s := (S.ok o.pair (hperm.symm.subset (by simp))).2.2
  have hv : ∀ q : Obj, Disj o.pair q.pair → ∀ x y : Arr K,
      view (Function.update (Function.update m.buf o.c x) o.s y) q = view m.buf q := by
    intro q hq x y
    obtain ⟨a, b, c, d⟩ : o.c ≠ q.c ∧ o.c ≠ q.s ∧ o.s ≠ q.c ∧ o.s ≠ q.s := hq
    rw [view_upd c.symm d.symm, view_upd a.symm b.symm]
  refine ⟨ka, ?_, ?_, S.dicts, S.dist, S.ok⟩
  · rw [← S.objs]
    simp only [inPlace, poke, hl, List.map_append, List.map_cons]
    rw [show l1.length = (l1.map (view m.buf)).length by simp, set_at]
    congr 1
    · apply List.map_congr_left
      intro q hq
      exact hv q (hd.1 _ (by simp; exact .inl ⟨q, hq, rfl⟩)) _ _
    · congr 1
      · simp [view, recoef, Function.update_of_ne hown]
      · apply List.map_congr_left
        intro q hq
        exact hv q (hd.1 _ (by simp; exact .inr (.inl ⟨q, hq, rfl⟩))) _ _
  · rw [← S.kept]
    apply List.map_congr_left
    intro p hp
    obtain ⟨a, b, c, d⟩ : o.c ≠ p.1 ∧ o.c ≠ p.2 ∧ o.s ≠ p.1 ∧ o.s ≠ p.2 :=
      hd.1 p (by simp [hp])
    show cont (Function.update (Function.update m.buf o.c _) o.s _) p = _
    rw [cont_upd c.symm d.symm, cont_upd a.symm b.symm]

/-- what an in-place operation reads in the sine statement -/
theorem read_after {m : Mem K} {v : VState K} (S : Sim m v) {i j : ℕ} {o p : Obj}
    (ho : m.objs[i]? = some o) (hp : m.objs[j]? = some p) (x : Arr K) :
    Function.update m.buf o.c x p.s = m.buf p.s := by
  obtain ⟨ka, S⟩ := S
  apply Function.update_of_ne
  obtain ⟨l1, l2, hl, rfl⟩ := split_at ho
  have hperm := perm_front (ka := ka) hl
  have hd := (hperm.pairwise_iff Disj.symm).1 S.dist
  rw [List.pairwise_cons] at hd
  have hmem : p ∈ m.objs := List.mem_of_getElem? hp
  rw [hl] at hmem
  simp only [List.mem_append, List.mem_cons] at hmem
  rcases hmem with h | rfl | h
  · exact (hd.1 p.pair (by simp; exact .inl ⟨p, h, rfl⟩)).2.1.symm
  · exact (S.ok p.pair (hperm.symm.subset (by simp))).2.2.symm
  · exact (hd.1 p.pair (by simp; exact .inr (.inl ⟨p, h, rfl⟩))).2.1.symm

theorem sim_kept {m : Mem K} {v : VState K} {ka : List (ℕ × ℕ)} (S : SimK m v ka) {k : ℕ}
    {d : Obj} (hk : ka[k]? = some d.pair) (c s : Arr K) :
    Sim (inPlace m d (fun _ => c) (fun _ => s)) { v with kept := v.kept.set k (c, s) } := by
  obtain ⟨l1, l2, hl, rfl⟩ := split_at hk
  have hperm : (m.objs.map Obj.pair ++ ka).Perm
      (d.pair :: (m.objs.map Obj.pair ++ (l1 ++ l2))) := by
    rw [hl, ← List.append_assoc, ← List.append_assoc]
    exact List.perm_middle
  have hd := (hperm.pairwise_iff Disj.symm).1 S.dist
  rw [List.pairwise_cons] at hd
  have hown : d.c ≠ d.s := (S.ok d.pair (hperm.symm.subset (by simp))).2.2
  have hc : ∀ q, Disj d.pair q →
      cont (Function.update (Function.update m.buf d.c c) d.s s) q = cont m.buf q := by
    intro q hq
    obtain ⟨h1, h2, h3, h4⟩ : d.c ≠ q.1 ∧ d.c ≠ q.2 ∧ d.s ≠ q.1 ∧ d.s ≠ q.2 := hq
    rw [cont_upd h3.symm h4.symm, cont_upd h1.symm h2.symm]
  refine ⟨ka, ?_, ?_, S.dicts, S.dist, S.ok⟩
  · rw [← S.objs]
    apply List.map_congr_left
    intro q hq
    obtain ⟨h1, h2, h3, h4⟩ : d.c ≠ q.c ∧ d.c ≠ q.s ∧ d.s ≠ q.c ∧ d.s ≠ q.s :=
      hd.1 q.pair (by simp; exact .inl ⟨q, hq, rfl⟩)
    show view (Function.update (Function.update m.buf d.c c) d.s s) q = _
    rw [view_upd h3.symm h4.symm, view_upd h1.symm h2.symm]
  · rw [← S.kept]
    simp only [inPlace, poke, hl, List.map_append, List.map_cons]
    rw [show l1.length = (l1.map (cont m.buf)).length by simp, set_at]
    congr 1
    · apply List.map_congr_left
      intro q hq
      exact hc q (hd.1 _ (by simp [hq]))
    · congr 1
      · simp [cont, Obj.pair, Function.update_of_ne hown]
      · apply List.map_congr_left
        intro q hq
        exact hc q (hd.1 _ (by simp [hq]))

theorem set_getElem? {l1 l2 : List Obj} {o o' : Obj} (hp : o.pair = o'.pair) (i : ℕ) (q : Obj)
    (h : (l1 ++ o :: l2)[i]? = some q) :
    ∃ q', (l1 ++ o' :: l2)[i]? = some q' ∧ q.pair = q'.pair := by
  rw [List.getElem?_append] at h ⊢
  split_ifs at h ⊢ with h1
  · exact ⟨q, h, rfl⟩
  · rcases hk : i - l1.length with _ | k
    · rw [hk] at h; simp at h; subst h; exact ⟨o', by simp, hp⟩
    · rw [hk] at h; exact ⟨q, by simpa using h, rfl⟩

/-- an object with the same arrays and other sizes -/
theorem sim_header {m : Mem K} {v : VState K} (S : Sim m v) {i : ℕ} {o o' : Obj}
    (ho : m.objs[i]? = some o) (hp : o.pair = o'.pair) :
    Sim { m with objs := m.objs.set i o' }
      { v with objs := v.objs.set i (view m.buf o') } := by
  obtain ⟨ka, S⟩ := S
  obtain ⟨l1, l2, hl, rfl⟩ := split_at ho
  have hset : m.objs.set l1.length o' = l1 ++ o' :: l2 := by rw [hl, set_at]
  have hpairs : (l1 ++ o' :: l2).map Obj.pair = m.objs.map Obj.pair := by
    rw [hl]; simp [hp]
  refine ⟨ka, ?_, S.kept, ?_, ?_, ?_⟩
  · rw [← S.objs]
    simp only [hset]
    rw [hl, List.map_append, List.map_append, List.map_cons, List.map_cons]
    rw [show l1.length = (l1.map (view m.buf)).length by simp, set_at]
  · refine S.dicts.imp fun d e hd => hd.mono ?_ fun _ _ h => h
    intro i q hq
    simp only [hset]
    rw [hl] at hq
    exact set_getElem? hp i q hq
  · simp only [hset, hpairs]; exact S.dist
  · simp only [hset, hpairs]; exact S.ok

theorem sim_toDict {m : Mem K} {v : VState K} (S : Sim m v) {i : ℕ} {o : Obj}
    (ho : m.objs[i]? = some o) :
    Sim { m with dicts := m.dicts ++ [o] }
      { v with dicts := v.dicts ++ [⟨o.lmax, o.mmax, o.nt, o.time, o.month, .live i⟩] } := by
  obtain ⟨ka, S⟩ := S
  refine ⟨ka, S.objs, S.kept, ?_, S.dist, S.ok⟩
  refine List.rel_append S.dicts (.cons ?_ .nil)
  exact ⟨rfl, rfl, rfl, rfl, rfl, o, ho, rfl⟩

theorem sim_cut {m : Mem K} {v : VState K} (S : Sim m v) {i : ℕ} {o : Obj}
    (ho : m.objs[i]? = some o) (h : Harm K) :
    let o' : Obj := ⟨h.lmax, h.mmax, h.nt, m.next, m.next + 1, h.time, h.month⟩
    Sim { m with buf := Function.update (Function.update m.buf m.next h.clm) (m.next + 1) h.slm
                 next := m.next + 1 + 1
                 objs := m.objs.set i o' }
      (v.cut i (view m.buf o) h) := by
  intro o'
  obtain ⟨ka, S⟩ := S
  obtain ⟨l1, l2, hl, rfl⟩ := split_at ho
  have hne : ∀ p ∈ m.objs.map Obj.pair ++ ka,
      p.1 ≠ m.next ∧ p.2 ≠ m.next ∧ p.1 ≠ m.next + 1 ∧ p.2 ≠ m.next + 1 := by
    intro p hp
    have := S.ok p hp
    unfold Ok at this
    omega
  have hset : m.objs.set l1.length o' = l1 ++ o' :: l2 := by rw [hl, set_at]
  have hview : ∀ q ∈ m.objs,
      view (Function.update (Function.update m.buf m.next h.clm) (m.next + 1) h.slm) q
        = view m.buf q := by
    intro q hq
    obtain ⟨a, b, c, d⟩ := hne q.pair (by simp; exact .inl ⟨q, hq, rfl⟩)
    rw [view_upd c d, view_upd a b]
  have hcont : ∀ p ∈ m.objs.map Obj.pair ++ ka,
      cont (Function.update (Function.update m.buf m.next h.clm) (m.next + 1) h.slm) p
        = cont m.buf p := by
    intro p hp
    obtain ⟨a, b, c, d⟩ := hne p hp
    rw [cont_upd c d, cont_upd a b]
  have hlen : ka.length = v.kept.length := by rw [← S.kept]; simp
  have hperm : ((l1 ++ o' :: l2).map Obj.pair ++ (ka ++ [o.pair])).Perm
      ((m.next, m.next + 1) :: (m.objs.map Obj.pair ++ ka)) := by
    rw [hl]
    simp only [List.map_append, List.map_cons, List.append_assoc, List.cons_append]
    refine List.perm_middle.trans ?_
    refine List.Perm.cons _ ?_
    refine List.Perm.append_left _ ?_
    rw [← List.append_assoc]
    exact List.perm_append_singleton _ _
  refine ⟨ka ++ [o.pair], ?_, ?_, ?_, ?_, ?_⟩
  · show List.map _ (m.objs.set l1.length o') = v.objs.set l1.length h
    rw [hset, ← S.objs]
    simp only [hl, List.map_append, List.map_cons]
    rw [show l1.length = (l1.map (view m.buf)).length by simp, set_at]
    congr 1
    · exact List.map_congr_left fun q hq => hview q (by rw [hl]; simp [hq])
    · congr 1
      · simp [view, o']
      · exact List.map_congr_left fun q hq => hview q (by rw [hl]; simp [hq])
  · show _ = v.kept ++ _
    rw [← S.kept]
    simp only [List.map_append, List.map_cons, List.map_nil]
    congr 1
    · exact List.map_congr_left fun p hp => hcont p (by simp [hp])
    · rw [hcont _ (by rw [hl]; simp)]; rfl
  · show List.Forall₂ _ m.dicts (v.dicts.map _)
    rw [List.forall₂_map_right_iff]
    refine S.dicts.imp fun d e hd => ?_
    obtain ⟨h1, h2, h3, h4, h5, h6⟩ := hd
    show DSim (m.objs.set l1.length o') (ka ++ [o.pair]) d (unlink l1.length v.kept.length e)
    unfold unlink
    split_ifs with hs
    · refine ⟨h1, h2, h3, h4, h5, ?_⟩
      rw [hs] at h6
      obtain ⟨q, hq, hp⟩ := h6
      rw [ho] at hq
      cases hq
      show (ka ++ [o.pair])[v.kept.length]? = _
      rw [← hlen, hp]; simp
    · refine ⟨h1, h2, h3, h4, h5, ?_⟩
      cases hsrc : e.src with
      | live j =>
        rw [hsrc] at h6 hs
        obtain ⟨q, hq, hp⟩ := h6
        refine ⟨q, ?_, hp⟩
        have : l1.length ≠ j := fun h => hs (by rw [h])
        rw [List.getElem?_set_ne this, hq]
      | kept k =>
        rw [hsrc] at h6
        have hk : k < ka.length := (List.getElem?_eq_some_iff.1 h6).1
        show (ka ++ _)[k]? = _
        rw [List.getElem?_append_left hk]; exact h6
  · show ((m.objs.set l1.length o').map Obj.pair ++ _).Pairwise Disj
    rw [hset, hperm.pairwise_iff Disj.symm]
    refine List.Pairwise.cons ?_ S.dist
    intro p hp
    obtain ⟨a, b, c, d⟩ := hne p hp
    exact ⟨a.symm, b.symm, c.symm, d.symm⟩
  · intro p hp
    have hp : p ∈ (m.objs.set l1.length o').map Obj.pair ++ (ka ++ [o.pair]) := hp
    rw [hset] at hp
    have := hperm.subset hp
    rw [List.mem_cons] at this
    show Ok (m.next + 1 + 1) p
    rcases this with rfl | hp'
    · exact ⟨by simp; omega, by simp, by simp⟩
    · obtain ⟨a, b, c⟩ := S.ok p hp'
      exact ⟨by omega, by omega, c⟩

/-! ## every step -/

/-- outcomes agree -/
def ESim : Except Err (Mem K) → Except Err (VState K) → Prop
  | .ok m, .ok v => Sim m v
  | .error e, .error e' => e = e'
  | _, _ => False

theorem getObj_sim {m : Mem K} {v : VState K} (S : Sim m v) (i : ℕ) :
    (∃ o, m.objs[i]? = some o ∧ getObj m.objs i = .ok o ∧
      getObj v.objs i = .ok (view m.buf o)) ∨
    (getObj m.objs i = .error .typeError ∧ getObj v.objs i = .error .typeError) := by
  obtain ⟨ka, S⟩ := S
  have : v.objs[i]? = (m.objs[i]?).map (view m.buf) := by rw [← S.objs]; simp
  unfold getObj
  cases h : m.objs[i]? with
  | none => right; simp [this, h]
  | some o => left; exact ⟨o, rfl, by simp, by simp [this, h]⟩

theorem esim_make {m : Mem K} {v : VState K} (S : Sim m v) (r : Except Err (Harm K)) :
    ESim (makeMem m r) (v.push r) := by
  cases r with
  | error e => exact rfl
  | ok h => exact sim_newObj S h

theorem esim_unary {m : Mem K} {v : VState K} (S : Sim m v) (i : ℕ)
    (F : Harm K → Except Err (Harm K)) :
    ESim (do makeMem m (F (view m.buf (← getObj m.objs i))))
      (do v.push (F (← getObj v.objs i))) := by
  rcases getObj_sim S i with ⟨o, -, h1, h2⟩ | ⟨h1, h2⟩
  · rw [h1, h2]; exact esim_make S _
  · rw [h1, h2]; exact rfl

theorem getObjs_sim {m : Mem K} {v : VState K} (S : Sim m v) (is : List ℕ) :
    (∃ os, getObjs m.objs is = .ok os ∧ getObjs v.objs is = .ok (os.map (view m.buf))) ∨
    (getObjs m.objs is = .error .typeError ∧ getObjs v.objs is = .error .typeError) := by
  induction is with
  | nil => exact .inl ⟨[], rfl, rfl⟩
  | cons i is ih =>
    rcases getObj_sim S i with ⟨o, -, h1, h2⟩ | ⟨h1, h2⟩
    · rcases ih with ⟨os, h3, h4⟩ | ⟨h3, h4⟩
      · exact .inl ⟨o :: os, by simp only [getObjs, h1, h3]; rfl,
          by simp only [getObjs, h2, h4]; rfl⟩
      · exact .inr ⟨by simp only [getObjs, h1, h3]; rfl, by simp only [getObjs, h2, h4]; rfl⟩
    · exact .inr ⟨by simp only [getObjs, h1]; rfl, by simp only [getObjs, h2]; rfl⟩

theorem windowed_eq (op : K → K → K) (h k : Harm K) :
    windowed op h k = (pairing h k).map fun r =>
      { h with clm := windowOp op (bound1 h.lmax k.lmax) (bound1 h.mmax k.mmax) r.1 r.2 h.clm k.clm
               slm := windowOp op (bound1 h.lmax k.lmax) (bound1 h.mmax k.mmax) r.1 r.2
                 h.slm k.slm } := by
  unfold windowed pairing
  rcases h.nt with _ | n <;> rcases k.nt with _ | n' <;> simp only [] <;> try rfl
  all_goals split_ifs <;> rfl

theorem divide_eq (h k : Harm K) :
    divide h k = (pairing h k).map fun r =>
      { h with clm := trilDiv true (bound1 h.lmax k.lmax) (bound1 h.mmax k.mmax) r.1 r.2
                 h.clm k.clm
               slm := trilDiv false (bound1 h.lmax k.lmax) (bound1 h.mmax k.mmax) r.1 r.2
                 h.slm k.slm } := by
  unfold divide pairing
  rcases h.nt with _ | n <;> rcases k.nt with _ | n' <;> simp only [] <;> try rfl
  all_goals split_ifs <;> rfl

theorem esim_binary {m : Mem K} {v : VState K} (S : Sim m v) (i j : ℕ)
    (A : (ℕ → ℕ) × (ℕ → Bool) → ℕ → ℕ → Arr K → Arr K → Arr K)
    (B : (ℕ → ℕ) × (ℕ → Bool) → ℕ → ℕ → Arr K → Arr K → Arr K)
    (F : Harm K → Harm K → Except Err (Harm K))
    (hF : ∀ h k, F h k = (pairing h k).map fun r =>
      { h with clm := A r (bound1 h.lmax k.lmax) (bound1 h.mmax k.mmax) h.clm k.clm
               slm := B r (bound1 h.lmax k.lmax) (bound1 h.mmax k.mmax) h.slm k.slm }) :
    ESim (do
      let o ← getObj m.objs i
      let p ← getObj m.objs j
      let r ← pairing (view m.buf o) (view m.buf p)
      return inPlace m o (fun b => A r (bound1 o.lmax p.lmax) (bound1 o.mmax p.mmax) (b o.c) (b p.c))
        (fun b => B r (bound1 o.lmax p.lmax) (bound1 o.mmax p.mmax) (b o.s) (b p.s)))
      (do v.put i (F (← getObj v.objs i) (← getObj v.objs j))) := by
  rcases getObj_sim S i with ⟨o, ho, h1, h2⟩ | ⟨h1, h2⟩
  · rcases getObj_sim S j with ⟨p, hp, h3, h4⟩ | ⟨h3, h4⟩
    · rw [h1, h2, h3, h4]
      simp only [hF, bind, Except.bind]
      cases hr : pairing (view m.buf o) (view m.buf p) with
      | error e => exact rfl
      | ok r =>
        have := sim_inPlace S ho
          (fun b => A r (bound1 o.lmax p.lmax) (bound1 o.mmax p.mmax) (b o.c) (b p.c))
          (fun b => B r (bound1 o.lmax p.lmax) (bound1 o.mmax p.mmax) (b o.s) (b p.s))
        simp only [read_after S ho ho, read_after S ho hp] at this
        exact this
    · rw [h1, h2, h3, h4]; exact rfl
  · rw [h1, h2]; exact rfl

theorem esim_mean {m : Mem K} {v : VState K} (S : Sim m v) (i : ℕ) (a : Bool) (idx : List ℕ) :
    ESim (meanMem m i a idx) (do v.avg i (← getObj v.objs i) a idx) := by
  unfold meanMem
  rcases getObj_sim S i with ⟨o, ho, h1, h2⟩ | ⟨h1, h2⟩
  · rw [h1, h2]
    simp only [bind, Except.bind, VState.avg]
    split_ifs with he
    · exact rfl
    · set h : Harm K := ⟨o.lmax, o.mmax, none, (meanArr o a idx (m.buf o.c)).1,
        (meanArr o a idx (m.buf o.s)).1, [npMean (idx.map fun i => o.time.getD i 0)], []⟩ with hh
      have S1 := sim_newObj S h
      have hi := (List.getElem?_eq_some_iff.1 ho).1
      have ho1 : (newObj m h).objs[i]? = some o := by
        show (m.objs ++ _)[i]? = _
        rw [List.getElem?_append_left hi, ho]
      have S2 := sim_inPlace S1 ho1 (fun b => (meanArr o a idx (b o.c)).2)
        (fun b => (meanArr o a idx (b o.s)).2)
      simp only [read_after S1 ho1 ho1] at S2
      have hv : view (newObj m h).buf o = view m.buf o := by
        obtain ⟨ka, S⟩ := S
        have hk := S.ok o.pair (by
          simp only [List.mem_append, List.mem_map]
          exact .inl ⟨o, List.mem_of_getElem? ho, rfl⟩)
        have h1 : o.c < m.next := hk.1
        have h2 : o.s < m.next := hk.2.1
        show view (Function.update (Function.update m.buf m.next h.clm) (m.next + 1) h.slm) o = _
        rw [view_upd (by omega) (by omega), view_upd (by omega) (by omega)]
      have hc : (newObj m h).buf o.c = m.buf o.c := congrArg Harm.clm hv
      have hs : (newObj m h).buf o.s = m.buf o.s := congrArg Harm.slm hv
      have hlen : i < v.objs.length := by
        obtain ⟨ka, S⟩ := S
        rw [← S.objs]; simpa using hi
      simp only [hv, hc, hs, List.set_append_left _ _ hlen] at S2
      exact S2
  · rw [h1, h2]; exact rfl

theorem esim_convolve {m : Mem K} {v : VState K} (S : Sim m v) (i : ℕ) (a : List K) :
    ESim (convolveMem m i a) (do v.put i (convolve (← getObj v.objs i) a)) := by
  unfold convolveMem
  rcases getObj_sim S i with ⟨o, ho, h1, h2⟩ | ⟨h1, h2⟩
  · rw [h1, h2]
    simp only [bind, Except.bind, convolve]
    by_cases hc : a.length < o.lmax + 1 ∧ (o.nt.isNone ∨ o.time ≠ [])
    · rw [if_pos hc, if_pos (by exact hc)]; exact rfl
    · rw [if_neg hc, if_neg (by exact hc)]
      have := sim_inPlace S ho (fun b => convArr o a (b o.c)) (fun b => convArr o a (b o.s))
      simp only [read_after S ho ho] at this
      exact this
  · rw [h1, h2]; exact rfl

theorem esim_truncate {m : Mem K} {v : VState K} (S : Sim m v) (i : ℕ) (L : Option ℕ) (l : ℕ)
    (M : Option ℕ) :
    ESim (truncateMem m i L l M)
      (do let h ← getObj v.objs i; return v.cut i h (truncate h L l M)) := by
  unfold truncateMem
  rcases getObj_sim S i with ⟨o, ho, h1, h2⟩ | ⟨h1, h2⟩
  · rw [h1, h2]
    exact sim_cut S ho (truncate (view m.buf o) L l M)
  · rw [h1, h2]; exact rfl

theorem getDict_sim {m : Mem K} {v : VState K} {ka} (S : SimK m v ka) (i : ℕ) :
    (∃ d e, DSim m.objs ka d e ∧ getObj m.dicts i = .ok d ∧ getObj v.dicts i = .ok e) ∨
    (getObj m.dicts i = .error .typeError ∧ getObj v.dicts i = .error .typeError) := by
  have : ∀ {l : List Obj} {l' : List VDict}, List.Forall₂ (DSim m.objs ka) l l' → ∀ i : ℕ,
      (∃ d e, DSim m.objs ka d e ∧ l[i]? = some d ∧ l'[i]? = some e) ∨
      (l[i]? = none ∧ l'[i]? = none) := by
    intro l l' h
    induction h with
    | nil => intro i; simp
    | cons h _ ih =>
      intro i
      rcases i with _ | i
      · exact .inl ⟨_, _, h, rfl, rfl⟩
      · simpa using ih i
  unfold getObj
  rcases this S.dicts i with ⟨d, e, h, h1, h2⟩ | ⟨h1, h2⟩
  · exact .inl ⟨d, e, h, by rw [h1], by rw [h2]⟩
  · exact .inr ⟨by rw [h1], by rw [h2]⟩

theorem squeeze_eq (buf : ℕ → Arr K) (o : Obj) :
    squeeze (view buf o) = view buf { o with nt := squeezeNt o.nt } := by
  unfold squeeze squeezeNt view
  rcases o.nt with _ | n
  · rfl
  · by_cases h : n = 1
    · subst h; rfl
    · split <;> split <;> simp_all

theorem step_sim {m : Mem K} {v : VState K} (S : Sim m v) (c : Cmd K) :
    ESim (step m c) (vstep v c) := by
  cases c with
  | zeros L M nt => exact esim_make S (.ok (zerosHarm L M nt))
  | copy i => exact esim_unary S i (fun h => .ok h)
  | index i k => exact esim_unary S i (fun h => index h k)
  | subset i ms => exact esim_unary S i (fun h => subset h ms)
  | scale i a => exact esim_unary S i (fun h => .ok (scale h a))
  | scaleVec i a => exact esim_unary S i (fun h => scaleVec h a)
  | power i n => exact esim_unary S i (fun h => .ok (power h n))
  | drift i ts e => exact esim_unary S i (fun h => .ok (drift h ts e))
  | fromList is p =>
    rcases getObjs_sim S is with ⟨os, h1, h2⟩ | ⟨h1, h2⟩
    · simp only [step, vstep, h1, h2]
      exact esim_make S _
    · simp only [step, vstep, h1, h2]; exact rfl
  | mean i a idx => exact esim_mean S i a idx
  | add i j =>
    exact esim_binary S i j (fun r l m => windowOp (· + ·) l m r.1 r.2)
      (fun r l m => windowOp (· + ·) l m r.1 r.2) add (fun h k => windowed_eq _ h k)
  | subtract i j =>
    exact esim_binary S i j (fun r l m => windowOp (· - ·) l m r.1 r.2)
      (fun r l m => windowOp (· - ·) l m r.1 r.2) subtract (fun h k => windowed_eq _ h k)
  | multiply i j =>
    exact esim_binary S i j (fun r l m => windowOp (· * ·) l m r.1 r.2)
      (fun r l m => windowOp (· * ·) l m r.1 r.2) multiply (fun h k => windowed_eq _ h k)
  | divide i j =>
    exact esim_binary S i j (fun r l m => trilDiv true l m r.1 r.2)
      (fun r l m => trilDiv false l m r.1 r.2) divide (fun h k => divide_eq h k)
  | convolve i a => exact esim_convolve S i a
  | truncate i L l M => exact esim_truncate S i L l M
  | expandDims i =>
    rcases getObj_sim S i with ⟨o, ho, h1, h2⟩ | ⟨h1, h2⟩
    · simp only [step, vstep, h1, h2]
      exact sim_header (o' := { o with nt := expandNt o.nt }) S ho rfl
    · simp only [step, vstep, h1, h2]; exact rfl
  | squeeze i =>
    rcases getObj_sim S i with ⟨o, ho, h1, h2⟩ | ⟨h1, h2⟩
    · simp only [step, vstep, h1, h2]
      have := sim_header (o' := { o with nt := squeezeNt o.nt }) S ho rfl
      rw [← squeeze_eq] at this
      exact this
    · simp only [step, vstep, h1, h2]; exact rfl
  | assign i c s =>
    rcases getObj_sim S i with ⟨o, ho, h1, h2⟩ | ⟨h1, h2⟩
    · simp only [step, vstep, h1, h2]
      exact sim_inPlace S ho (fun _ => c) (fun _ => s)
    · simp only [step, vstep, h1, h2]; exact rfl
  | toDict i =>
    rcases getObj_sim S i with ⟨o, ho, h1, h2⟩ | ⟨h1, h2⟩
    · simp only [step, vstep, h1, h2]
      exact sim_toDict S ho
    · simp only [step, vstep, h1, h2]; exact rfl
  | fromDict d =>
    have S' := S
    obtain ⟨ka, S0⟩ := S'
    rcases getDict_sim S0 d with ⟨o, e, h, h1, h2⟩ | ⟨h1, h2⟩
    · simp only [step, vstep, h1, h2]
      show ESim (makeMem m (.ok (view m.buf o))) (v.push (.ok (v.dict e)))
      rw [dict_view S0 h]
      exact esim_make S _
    · simp only [step, vstep, h1, h2]; exact rfl
  | assignDict d c s =>
    have S' := S
    obtain ⟨ka, S0⟩ := S'
    rcases getDict_sim S0 d with ⟨o, e, h, h1, h2⟩ | ⟨h1, h2⟩
    · simp only [step, vstep, h1, h2]
      show Sim (inPlace m o (fun _ => c) (fun _ => s)) (v.assignSrc c s e.src)
      obtain ⟨-, -, -, -, -, h6⟩ := h
      cases hs : e.src with
      | live i =>
        rw [hs] at h6
        obtain ⟨q, hq, hp⟩ := h6
        have hv : v.objs[i]? = some (view m.buf q) := by rw [← S0.objs]; simp [hq]
        have := sim_inPlace S hq (fun _ => c) (fun _ => s)
        simp only [Obj.pair, Prod.mk.injEq] at hp
        simp only [VState.assignSrc, hv, inPlace, hp]
        exact this
      | kept k =>
        rw [hs] at h6
        exact sim_kept S0 h6 c s
    · simp only [step, vstep, h1, h2]; exact rfl

theorem run_sim (cs : List (Cmd K)) : ∀ {m : Mem K} {v : VState K}, Sim m v →
    ESim (run m cs) (vrun v cs) := by
  induction cs with
  | nil => intro m v S; exact S
  | cons c cs ih =>
    intro m v S
    have h := step_sim S c
    simp only [run, vrun]
    cases h1 : step m c with
    | error e =>
      cases h2 : vstep v c with
      | error e' => rw [h1, h2] at h; exact h
      | ok v' => rw [h1, h2] at h; exact h.elim
    | ok m' =>
      cases h2 : vstep v c with
      | error e' => rw [h1, h2] at h; exact h.elim
      | ok v' => rw [h1, h2] at h; exact ih h

end Verif.Share
