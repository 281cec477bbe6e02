import Verif.Share.Lemmas
import Mathlib.Tactic.NormNum

/-!
# C88: objects of the `harmonics` class do not share coefficients

Main theorem: every program of method calls and element assignments gives, in memory with
shared arrays, what it gives on independent values.  Corollaries: a method changes no object
but the one it is called on; a copy is independent of its original for ever.  The exceptions:
dictionaries of `to_dict` show later changes of the object (until it is truncated), and
file-level attributes are shared by copies.
-/
namespace Verif.Share
open Verif.Harmonics

set_option linter.unusedSectionVars false

variable {K : Type} [Field K]

/-- **Programs in memory and programs on values have the same results**, including the
exception that ends them. -/
theorem memory_is_values (cs : List (Cmd K)) :
    (run Mem.empty cs).map observe = (vrun VState.empty cs).map VState.observe := by
  have h := run_sim cs (sim_empty (K := K))
  cases h1 : run (Mem.empty : Mem K) cs with
  | error e =>
    cases h2 : vrun (VState.empty : VState K) cs with
    | error e' => rw [h1, h2] at h; exact congrArg Except.error h
    | ok v => rw [h1, h2] at h; exact h.elim
  | ok m =>
    cases h2 : vrun (VState.empty : VState K) cs with
    | error e' => rw [h1, h2] at h; exact h.elim
    | ok v => rw [h1, h2] at h; exact congrArg Except.ok (sim_observe h)

/-- memories that programs produce -/
def Reachable (m : Mem K) : Prop := ∃ cs, run Mem.empty cs = .ok m

/-- the object number `i` as the user reads it -/
def Mem.obj (m : Mem K) (i : ℕ) : Option (Harm K) := (m.objs[i]?).map (view m.buf)

/-- the dictionary number `d` as the user reads it -/
def Mem.dict (m : Mem K) (d : ℕ) : Option (Harm K) := (m.dicts[d]?).map (view m.buf)

/-- the object a command is called on, if the documentation says it is changed -/
def target : Cmd K → Option ℕ
  | .mean i true _ => some i
  | .add i _ | .subtract i _ | .multiply i _ | .divide i _ => some i
  | .convolve i _ | .truncate i _ _ _ | .expandDims i | .squeeze i | .assign i _ _ => some i
  | _ => none

/-- assignments to the arrays in a dictionary of `to_dict` -/
def isAssignDict : Cmd K → Bool
  | .assignDict _ _ _ => true
  | _ => false

theorem Reachable.sim {m : Mem K} (h : Reachable m) : ∃ v, Sim m v := by
  obtain ⟨cs, hc⟩ := h
  have := run_sim cs (sim_empty (K := K))
  rw [hc] at this
  cases h2 : vrun (VState.empty : VState K) cs with
  | error e => rw [h2] at this; exact this.elim
  | ok v => rw [h2] at this; exact ⟨v, this⟩

theorem obj_eq {m : Mem K} {v : VState K} (S : Sim m v) (i : ℕ) : m.obj i = v.objs[i]? := by
  obtain ⟨ka, S⟩ := S
  rw [← S.objs]; simp [Mem.obj]

theorem len_eq {m : Mem K} {v : VState K} (S : Sim m v) : m.objs.length = v.objs.length := by
  obtain ⟨ka, S⟩ := S
  rw [← S.objs]; simp

theorem dict_eq {m : Mem K} {v : VState K} (S : Sim m v) (d : ℕ) :
    m.dict d = (v.dicts[d]?).map v.dict := by
  have := congrArg Prod.snd (sim_observe S)
  simp only [observe, VState.observe] at this
  have := congrArg (·[d]?) this
  simpa [Mem.dict] using this

theorem step_ok {m m' : Mem K} {v : VState K} (S : Sim m v) {c : Cmd K} (h : step m c = .ok m') :
    ∃ v', vstep v c = .ok v' ∧ Sim m' v' := by
  have := step_sim S c
  rw [h] at this
  cases h2 : vstep v c with
  | error e => rw [h2] at this; exact this.elim
  | ok v' => rw [h2] at this; exact ⟨v', rfl, this⟩

theorem run_ok {m m' : Mem K} {v : VState K} (S : Sim m v) {cs : List (Cmd K)}
    (h : run m cs = .ok m') : ∃ v', vrun v cs = .ok v' ∧ Sim m' v' := by
  have := run_sim cs S
  rw [h] at this
  cases h2 : vrun v cs with
  | error e => rw [h2] at this; exact this.elim
  | ok v' => rw [h2] at this; exact ⟨v', rfl, this⟩

/-! ### on values, commands change only their target -/

theorem mean_false (h : Harm K) (idx : List ℕ) : (mean h false idx).2 = h := by
  have key : ∀ (ps : List (ℕ × ℕ)) (st : (ℕ × ℕ → K) × (ℕ × ℕ → ℕ → K)),
      (ps.foldl (meanStep false idx) st).2 = st.2 := by
    intro ps
    induction ps with
    | nil => intro st; rfl
    | cons p ps ih => intro st; rw [List.foldl_cons, ih]; rfl
  simp only [mean, key]

theorem push_frame {v v' : VState K} {r : Except Err (Harm K)} (h : v.push r = .ok v') {i : ℕ}
    (hi : i < v.objs.length) : v'.objs[i]? = v.objs[i]? ∧ v.objs.length ≤ v'.objs.length := by
  cases r with
  | error e => cases h
  | ok x =>
    cases h
    exact ⟨by simp [List.getElem?_append_left hi], by simp⟩

theorem put_frame {v v' : VState K} {r : Except Err (Harm K)} {j : ℕ} (h : v.put j r = .ok v')
    {i : ℕ} (hi : j ≠ i) : v'.objs[i]? = v.objs[i]? ∧ v.objs.length ≤ v'.objs.length := by
  cases r with
  | error e => cases h
  | ok x =>
    cases h
    exact ⟨List.getElem?_set_ne hi, by simp⟩

theorem bind_ok {α β : Type} {x : Except Err α} {f : α → Except Err β} {b : β}
    (h : x >>= f = .ok b) : ∃ a, x = .ok a ∧ f a = .ok b := by
  cases x with
  | error e => cases h
  | ok a => exact ⟨a, rfl, h⟩

theorem vstep_frame {v v' : VState K} {c : Cmd K} (h : vstep v c = .ok v') {i : ℕ}
    (hi : i < v.objs.length) (ht : target c ≠ some i) (hd : isAssignDict c = false) :
    v'.objs[i]? = v.objs[i]? ∧ v.objs.length ≤ v'.objs.length := by
  cases c with
  | zeros L M nt => exact push_frame h hi
  | copy j | index j k | subset j ms | scale j a | scaleVec j a | power j n | drift j ts e
  | fromList is p | fromDict d =>
    obtain ⟨a, -, ha⟩ := bind_ok h
    exact push_frame ha hi
  | mean j a idx =>
    obtain ⟨x, hx, ha⟩ := bind_ok h
    unfold VState.avg at ha
    split_ifs at ha
    cases ha
    refine ⟨?_, by simp⟩
    rw [List.getElem?_append_left (by simpa using hi)]
    cases a with
    | true => exact List.getElem?_set_ne fun h => ht (by rw [h]; rfl)
    | false =>
      rw [mean_false]
      unfold getObj at hx
      split at hx
      · next o ho =>
        cases hx
        by_cases hji : j = i
        · subst hji; rw [ho]; simp [List.getElem?_set_self hi]
        · exact List.getElem?_set_ne hji
      · cases hx
  | add j k | subtract j k | multiply j k | divide j k =>
    obtain ⟨x, -, h1⟩ := bind_ok h
    obtain ⟨y, -, h2⟩ := bind_ok h1
    exact put_frame h2 fun h => ht (by rw [← h]; rfl)
  | convolve j a | expandDims j | squeeze j | assign j c s =>
    obtain ⟨x, -, h1⟩ := bind_ok h
    exact put_frame h1 fun h => ht (by rw [← h]; rfl)
  | truncate j L l M =>
    obtain ⟨x, -, h1⟩ := bind_ok h
    cases h1
    exact ⟨List.getElem?_set_ne fun h => ht (by rw [← h]; rfl), by simp [VState.cut]⟩
  | toDict j =>
    obtain ⟨x, -, h1⟩ := bind_ok h
    cases h1
    exact ⟨rfl, le_rfl⟩
  | assignDict d c s => cases hd

theorem vrun_frame (cs : List (Cmd K)) : ∀ {v v' : VState K}, vrun v cs = .ok v' → ∀ {i : ℕ},
    i < v.objs.length → (∀ c ∈ cs, target c ≠ some i ∧ isAssignDict c = false) →
    v'.objs[i]? = v.objs[i]? := by
  induction cs with
  | nil => intro v v' h i _ _; cases h; rfl
  | cons c cs ih =>
    intro v v' h i hi hc
    obtain ⟨w, h1, h2⟩ := bind_ok h
    obtain ⟨e, l⟩ := vstep_frame h1 hi (hc c (by simp)).1 (hc c (by simp)).2
    rw [ih h2 (by omega) fun c' h' => hc c' (by simp [h']), e]

/-! ### the same in memory -/

/-- **A method changes no object but the one it is called on**: `index`, `subset`, `scale`,
`power`, `drift`, `copy`, `from_list`, `mean` without `apply`, `to_dict` and `from_dict`
change no object, the others no other object. -/
theorem only_target_changes {m m' : Mem K} (hr : Reachable m) {c : Cmd K}
    (h : step m c = .ok m') {i : ℕ} (hi : i < m.objs.length) (ht : target c ≠ some i)
    (hd : isAssignDict c = false) : m'.obj i = m.obj i := by
  obtain ⟨v, S⟩ := hr.sim
  obtain ⟨v', h', S'⟩ := step_ok S h
  rw [obj_eq S', obj_eq S]
  exact (vstep_frame h' (by rwa [← len_eq S]) ht hd).1

/-- **and so do whole programs**: an object stays the same as long as no method that changes
it is called on it, whatever is done with objects computed from it -/
theorem untouched_object_stays {m m' : Mem K} (hr : Reachable m) {cs : List (Cmd K)}
    (h : run m cs = .ok m') {i : ℕ} (hi : i < m.objs.length)
    (hc : ∀ c ∈ cs, target c ≠ some i ∧ isAssignDict c = false) : m'.obj i = m.obj i := by
  obtain ⟨v, S⟩ := hr.sim
  obtain ⟨v', h', S'⟩ := run_ok S h
  rw [obj_eq S', obj_eq S]
  exact vrun_frame cs h' (by rwa [← len_eq S]) hc

theorem Reachable.step {m m' : Mem K} (hr : Reachable m) {c : Cmd K} (h : step m c = .ok m') :
    Reachable m' := by
  obtain ⟨cs, hcs⟩ := hr
  refine ⟨cs ++ [c], ?_⟩
  have key : ∀ (cs : List (Cmd K)) (a b : Mem K), run a cs = .ok b →
      run a (cs ++ [c]) = Verif.Share.step b c := by
    intro cs
    induction cs with
    | nil =>
      intro a b hab
      cases hab
      show (Verif.Share.step a c >>= fun x => run x []) = _
      cases Verif.Share.step a c <;> rfl
    | cons d cs ih =>
      intro a b hab
      obtain ⟨x, h1, h2⟩ := bind_ok hab
      show (Verif.Share.step a d >>= fun x => run x (cs ++ [c])) = _
      rw [h1]
      exact ih x b h2
  rw [key cs _ _ hcs, h]

/-- **A copy equals its original and is independent of it**: after `copy`, whatever is done
to the copy (number `m.objs.length`) and to other objects, the original is as it was. -/
theorem copy_is_independent {m m1 m2 : Mem K} (hr : Reachable m) {i : ℕ}
    (hcopy : step m (.copy i) = .ok m1) {cs : List (Cmd K)} (hrun : run m1 cs = .ok m2)
    (hc : ∀ c ∈ cs, target c ≠ some i ∧ isAssignDict c = false) :
    m1.obj m.objs.length = m.obj i ∧ m2.obj i = m.obj i := by
  obtain ⟨v, S⟩ := hr.sim
  obtain ⟨v1, h1, S1⟩ := step_ok S hcopy
  obtain ⟨h, hh, hp⟩ := bind_ok h1
  have hi : v.objs[i]? = some h := by
    unfold getObj at hh
    split at hh
    · next o ho => cases hh; exact ho
    · cases hh
  have hlt : i < m.objs.length := by rw [len_eq S]; exact (List.getElem?_eq_some_iff.1 hi).1
  constructor
  · rw [obj_eq S1, obj_eq S, hi, len_eq S]
    cases hp
    simp
  · have e1 := only_target_changes hr hcopy hlt (by simp [target]) rfl
    have hlt1 : i < m1.objs.length := by
      rw [len_eq S1]
      cases hp
      simp only [List.length_append, List.length_cons, List.length_nil]
      rw [← len_eq S]; omega
    rw [untouched_object_stays (hr.step hcopy) hrun hlt1 hc, e1]

/-- and what is done to the original leaves the copy as it was -/
theorem original_is_independent {m m1 m2 : Mem K} (hr : Reachable m) {i : ℕ}
    (hcopy : step m (.copy i) = .ok m1) {cs : List (Cmd K)} (hrun : run m1 cs = .ok m2)
    (hc : ∀ c ∈ cs, target c ≠ some m.objs.length ∧ isAssignDict c = false) :
    m2.obj m.objs.length = m.obj i := by
  have e := (copy_is_independent hr hcopy (cs := []) rfl (by simp)).1
  rw [← e]
  refine untouched_object_stays (hr.step hcopy) hrun ?_ hc
  have : m1.obj m.objs.length ≠ none := by
    rw [e]
    obtain ⟨o, ho, -⟩ := bind_ok hcopy
    unfold getObj at ho
    split at ho
    · next o ho' => simp [Mem.obj, ho']
    · cases ho
  by_contra hlt
  exact this (by simp [Mem.obj, List.getElem?_eq_none (by omega : m1.objs.length ≤ m.objs.length)])

/-! ### dictionaries -/

/-- commands that detach the arrays of object `i` -/
def truncates (i : ℕ) : Cmd K → Bool
  | .truncate j _ _ _ => j == i
  | _ => false

theorem vstep_dict {v v' : VState K} {c : Cmd K} (h : vstep v c = .ok v') {d : ℕ} {e : VDict}
    (he : v.dicts[d]? = some e) :
    (∀ i, e.src = .live i → truncates i c = false → v'.dicts[d]? = some e) := by
  intro i hs ht
  have hlt := (List.getElem?_eq_some_iff.1 he).1
  have push : ∀ {r : Except Err (Harm K)}, v.push r = .ok v' → v'.dicts[d]? = some e := by
    intro r h; cases r <;> cases h; exact he
  have put : ∀ {j : ℕ} {r : Except Err (Harm K)}, v.put j r = .ok v' → v'.dicts[d]? = some e := by
    intro j r h; cases r <;> cases h; exact he
  cases c with
  | zeros L M nt => exact push h
  | copy j | index j k | subset j ms | scale j a | scaleVec j a | power j n | drift j ts e
  | fromList is p | fromDict d =>
    obtain ⟨a, -, ha⟩ := bind_ok h
    exact push ha
  | mean j a idx =>
    obtain ⟨x, hx, ha⟩ := bind_ok h
    unfold VState.avg at ha
    split_ifs at ha
    cases ha
    exact he
  | add j k | subtract j k | multiply j k | divide j k =>
    obtain ⟨x, -, h1⟩ := bind_ok h
    obtain ⟨y, -, h2⟩ := bind_ok h1
    exact put h2
  | convolve j a | expandDims j | squeeze j | assign j c s =>
    obtain ⟨x, -, h1⟩ := bind_ok h
    exact put h1
  | truncate j L l M =>
    obtain ⟨x, -, h1⟩ := bind_ok h
    cases h1
    have hji : j ≠ i := by simpa [truncates] using ht
    simp only [VState.cut, List.getElem?_map, he, Option.map_some]
    rw [unlink, if_neg (by rw [hs]; intro h; exact hji (Src.live.inj h).symm)]
  | toDict j =>
    obtain ⟨x, -, h1⟩ := bind_ok h
    cases h1
    show (v.dicts ++ _)[d]? = _
    rw [List.getElem?_append_left hlt, he]
  | assignDict k c s =>
    obtain ⟨x, -, h1⟩ := bind_ok h
    cases h1
    unfold VState.assignSrc
    split
    · split <;> exact he
    · exact he

theorem vrun_dict (cs : List (Cmd K)) : ∀ {v v' : VState K}, vrun v cs = .ok v' → ∀ {d : ℕ}
    {e : VDict} {i : ℕ}, v.dicts[d]? = some e → e.src = .live i →
    (∀ c ∈ cs, truncates i c = false) → v'.dicts[d]? = some e := by
  induction cs with
  | nil => intro v v' h; cases h; exact fun h _ _ => h
  | cons c cs ih =>
    intro v v' h d e i he hs hc
    obtain ⟨w, h1, h2⟩ := bind_ok h
    exact ih h2 (vstep_dict h1 he i hs (hc c (by simp))) hs fun c' h' => hc c' (by simp [h'])

/-- **A dictionary of `to_dict` shares the coefficients of its object**: as long as the object
is not truncated, the dictionary shows the object's present coefficients, not those at the
time of the call; truncation leaves the dictionary with the coefficients just before it. -/
theorem dict_shows_present_coefficients {m m1 m2 m3 : Mem K} (hr : Reachable m) {i : ℕ}
    (hd : step m (.toDict i) = .ok m1) {cs : List (Cmd K)} (hrun : run m1 cs = .ok m2)
    (hc : ∀ c ∈ cs, truncates i c = false) :
    ∃ h x, m2.obj i = some h ∧ m2.dict m.dicts.length = some x ∧ x.clm = h.clm ∧ x.slm = h.slm ∧
      ∀ {L : Option ℕ} {l : ℕ} {M : Option ℕ}, step m2 (.truncate i L l M) = .ok m3 →
        ∃ x', m3.dict m.dicts.length = some x' ∧ x'.clm = h.clm ∧ x'.slm = h.slm := by
  obtain ⟨v, S⟩ := hr.sim
  obtain ⟨v1, h1, S1⟩ := step_ok S hd
  obtain ⟨h0, hh, hp⟩ := bind_ok h1
  cases hp
  obtain ⟨v2, h2, S2⟩ := run_ok S1 hrun
  set e : VDict := ⟨h0.lmax, h0.mmax, h0.nt, h0.time, h0.month, .live i⟩ with he
  have hlen : m.dicts.length = v.dicts.length := by
    obtain ⟨ka, S⟩ := S
    exact S.dicts.length_eq
  have hv2 : v2.dicts[m.dicts.length]? = some e :=
    vrun_dict cs h2 (by rw [hlen]; simp) rfl hc
  -- the object still exists
  have hobj : ∃ h, v2.objs[i]? = some h := by
    obtain ⟨ka, S2'⟩ := S2
    have hD := S2'.dicts
    rw [List.forall₂_iff_get] at hD
    have hl := (List.getElem?_eq_some_iff.1 hv2)
    obtain ⟨hlt, heq⟩ := hl
    have := hD.2 m.dicts.length (by rw [hD.1]; exact hlt) hlt
    simp only [List.get_eq_getElem, heq] at this
    obtain ⟨o, ho, -⟩ := this.2.2.2.2.2
    exact ⟨view m2.buf o, by rw [← S2'.objs]; simp [ho]⟩
  obtain ⟨h, hobj⟩ := hobj
  refine ⟨h, v2.dict e, by rw [obj_eq S2, hobj], by rw [dict_eq S2, hv2]; rfl, ?_, ?_, ?_⟩
  · simp [VState.dict, VState.source, he, hobj]
  · simp [VState.dict, VState.source, he, hobj]
  · intro L l M ht
    obtain ⟨v3, h3, S3⟩ := step_ok S2 ht
    obtain ⟨x, hx, hcut⟩ := bind_ok h3
    have : x = h := by
      unfold getObj at hx
      rw [hobj] at hx
      cases hx; rfl
    subst this
    cases hcut
    refine ⟨(v2.cut i x (truncate x L l M)).dict { e with src := .kept v2.kept.length }, ?_, ?_, ?_⟩
    · rw [dict_eq S3]
      simp only [VState.cut, List.getElem?_map, hv2, Option.map_some]
      rw [unlink, if_pos (by rw [he])]
    · simp [VState.dict, VState.source, VState.cut]
    · simp [VState.dict, VState.source, VState.cut]

/-! ### attributes -/

theorem arun_roots (cs : List ACmd) : ∀ (m : AMem) (i : ℕ), i < m.roots.length →
    (arun m cs).roots[i]? = m.roots[i]? := by
  induction cs with
  | nil => intro m i _; rfl
  | cons c cs ih =>
    intro m i hi
    have h1 : (astep m c).roots[i]? = m.roots[i]? ∧ i < (astep m c).roots.length := by
      cases c with
      | new => simp [astep, List.getElem?_append_left hi]; omega
      | load a => simp [astep, List.getElem?_append_left hi]; omega
      | copy j =>
        simp only [astep]
        split
        · simp [List.getElem?_append_left hi]; omega
        · exact ⟨rfl, hi⟩
      | save j k v =>
        simp only [astep]
        split
        · split_ifs <;> exact ⟨rfl, hi⟩
        · exact ⟨rfl, hi⟩
    show (arun (astep m c) cs).roots[i]? = _
    rw [ih _ _ h1.2, h1.1]

/-- **File-level attributes are shared by copies**: after `copy`, the copy and the original
have the same file-level attributes for ever, whichever of them is written with a title -/
theorem copies_share_attributes (m : AMem) (i : ℕ) (hi : i < m.roots.length) (cs : List ACmd) :
    attrsOf (arun (astep m (.copy i)) cs) m.roots.length
      = attrsOf (arun (astep m (.copy i)) cs) i := by
  obtain ⟨r, hr⟩ : ∃ r, m.roots[i]? = some r := ⟨_, List.getElem?_eq_getElem hi⟩
  have hs : astep m (.copy i) = { m with roots := m.roots ++ [r] } := by simp [astep, hr]
  unfold attrsOf
  rw [hs, arun_roots cs _ m.roots.length (by simp), arun_roots cs _ i (by simp; omega)]
  simp [List.getElem?_append_left hi, hr]

/-- so writing a file from the copy with a title changes the title of the original -/
theorem title_of_copy_reaches_original :
    attrsOf (arun ⟨fun _ => [], 0, []⟩
      [.load [("title", "GSM"), ("source", "CSR")], .copy 0, .save 1 "title" "anomalies"]) 0
      = some [("title", "anomalies"), ("source", "CSR")] := by
  simp [arun, astep, attrsOf, setKey]

/-! ### the hypotheses are met -/

/-- a program: two objects, a copy, in-place work on the copy and on the original -/
def demo : List (Cmd ℚ) :=
  [.zeros 2 1 none, .assign 0 (fun l _ _ => l) (fun l m _ => l * m), .copy 0, .toDict 0,
   .add 1 1, .convolve 0 [1, 2, 3], .fromDict 0, .truncate 0 (some 1) 0 none, .scale 1 (1/2),
   .fromDict 0]

/-- degree 2 of order 1 of every object after the program: the original was truncated, the
copy doubled, the dictionary followed the convolution, the scaled copy is halved again -/
example : ∃ m, run Mem.empty demo = .ok m ∧
    m.objs.map (fun o => (view m.buf o).clm 2 1 0) = [0, 4, 6, 2, 6] ∧
    m.dicts.map (fun o => (view m.buf o).clm 2 1 0) = [6] := by
  refine ⟨_, rfl, ?_, ?_⟩ <;> decide +kernel

/-- a copy, then work on the copy: the hypotheses of `copy_is_independent` are met -/
example : ∃ m m1 m2 : Mem ℚ, Reachable m ∧ step m (.copy 0) = .ok m1 ∧
    run m1 [.add 1 0, .mean 1 true [0]] = .ok m2 ∧
    (∀ c ∈ [Cmd.add (K := ℚ) 1 0, .mean 1 true [0]], target c ≠ some 0 ∧ isAssignDict c = false) ∧
    m2.objs.map (fun o => (view m2.buf o).clm 1 0 1) = [5, 4, 6] := by
  refine ⟨_, _, _, ⟨[.zeros 1 1 (some 2), .assign 0 (fun l _ t => l * (2 * t + 3)) fun _ _ _ => 0], rfl⟩,
    rfl, rfl, ?_, ?_⟩
  · intro c hc
    simp only [List.mem_cons, List.not_mem_nil, or_false] at hc
    rcases hc with rfl | rfl <;> simp [target, isAssignDict]
  · decide +kernel

/-- without independence the theorems would be false: two names for the same arrays -/
example : ∃ m : Mem ℚ, m.objs.length = 2 ∧
    ∀ m', step m (.assign 1 (fun _ _ _ => 1) fun _ _ _ => 1) = .ok m' →
      (m'.obj 0).map (fun h => h.clm 0 0 0) ≠ (m.obj 0).map (fun h => h.clm 0 0 0) := by
  refine ⟨⟨fun _ _ _ _ => 0, 2, [⟨0, 0, none, 0, 1, [], []⟩, ⟨0, 0, none, 0, 1, [], []⟩], []⟩,
    rfl, ?_⟩
  intro m' h
  cases h
  simp [Mem.obj, view, inPlace, poke, Function.update]

end Verif.Share
