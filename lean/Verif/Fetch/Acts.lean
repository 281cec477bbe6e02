import Verif.Fetch.Spec
import Mathlib.Tactic.SplitIfs

/-!
# What a program of downloads does to the disk, when all requests succeed (helper lemmas for C109)
-/
namespace Verif.Fetch
open Verif.Utilities

/-- the last contents written to a path -/
def lastOf : List (Path × Bytes) → Path → Option Bytes
  | [], _ => none
  | x :: r, q => (lastOf r q).or (if x.1 = q then some x.2 else none)

theorem lastOf_append (l l' : List (Path × Bytes)) (q : Path) : lastOf (l ++ l') q = (lastOf l' q).or (lastOf l q) := by
  induction l with
  | nil => simp [lastOf]
  | cons x r ih => rw [List.cons_append, lastOf, ih, lastOf, Option.or_assoc]

theorem lastOf_none (l : List (Path × Bytes)) (q : Path) (h : ∀ x ∈ l, x.1 ≠ q) : lastOf l q = none := by
  induction l with
  | nil => rfl
  | cons x r ih =>
    rw [lastOf, ih fun y hy => h y (by simp [hy]), if_neg (h x (by simp))]; rfl

theorem lastOf_some (l : List (Path × Bytes)) (x : Path × Bytes) (hx : x ∈ l) (h : ∀ y ∈ l, y.1 = x.1 → y.2 = x.2) :
    lastOf l x.1 = some x.2 := by
  induction l with
  | nil => simp at hx
  | cons y r ih =>
    rw [lastOf]
    by_cases hr : ∃ z ∈ r, z.1 = x.1
    · obtain ⟨z, hz, hzx⟩ := hr
      have hzv := h z (by simp [hz]) hzx
      have : x ∈ r := by
        have : x = z := Prod.ext hzx.symm hzv.symm
        rw [this]; exact hz
      rw [ih this fun y hy => h y (by simp [hy])]; rfl
    · have hn : lastOf r x.1 = none := lastOf_none r x.1 fun z hz hzx => hr ⟨z, hz, hzx⟩
      rcases List.mem_cons.1 hx with rfl | hxr
      · rw [hn]; simp
      · exact absurd ⟨x, hxr, rfl⟩ hr

/-- The program writes the contents of the list, in order, and nothing else; it changes nothing when they are there already. -/
def Acts (C : Bytes → Prop) (P : Prog) (l : List (Path × Bytes)) : Prop :=
  ∀ s : State, Within C s.2 → (P s).2 = none ∧ Within C (P s).1.2 ∧
    (∀ q, lastOf l q = none → (P s).1.2 q = s.2 q) ∧
    (∀ q b, lastOf l q = some b → contents (P s).1.2 q = some b) ∧
    ((∀ x ∈ l, contents s.2 x.1 = some x.2) → (P s).1.2 = s.2)

theorem acts_skip (C : Bytes → Prop) : Acts C skip [] := fun s hs => ⟨rfl, hs, fun _ _ => rfl, fun q b h => by simp [lastOf] at h, fun _ => rfl⟩

theorem acts_andThen {C : Bytes → Prop} {P Q : Prog} {l l' : List (Path × Bytes)} (hP : Acts C P l) (hQ : Acts C Q l') :
    Acts C (andThen P Q) (l ++ l') := by
  intro s hs
  obtain ⟨p1, p2, p3, p4, p5⟩ := hP s hs
  obtain ⟨q1, q2, q3, q4, q5⟩ := hQ (P s).1 p2
  have he : andThen P Q s = Q (P s).1 := by
    unfold andThen
    rcases h : P s with ⟨t, e⟩
    rw [h] at p1
    simp only at p1
    rw [p1]
  rw [he]
  refine ⟨q1, q2, ?_, ?_, ?_⟩
  · intro q h
    rw [lastOf_append] at h
    have h' := Option.or_eq_none_iff.1 h
    rw [q3 q h'.1, p3 q h'.2]
  · intro q b h
    rw [lastOf_append] at h
    cases hl : lastOf l' q with
    | some c =>
      rw [hl] at h
      simp at h; subst h
      exact q4 q _ hl
    | none =>
      rw [hl] at h
      simp at h
      unfold contents
      rw [q3 q hl]
      exact p4 q b h
  · intro h
    have h1 := p5 fun x hx => h x (by simp [hx])
    rw [q5 fun x hx => by rw [h1]; exact h x (by simp [hx]), h1]

theorem acts_each {A : Type} {C : Bytes → Prop} (f : A → Prog) (g : A → List (Path × Bytes)) (l : List A)
    (h : ∀ a ∈ l, Acts C (f a) (g a)) : Acts C (each f l) (l.flatMap g) := by
  induction l with
  | nil => exact acts_skip C
  | cons a r ih =>
    rw [List.flatMap_cons]
    exact acts_andThen (h a (by simp)) (ih fun b hb => h b (by simp [hb]))

theorem acts_when {C : Bytes → Prop} (b : Bool) {P : Prog} {l : List (Path × Bytes)} (h : b = true → Acts C P l) :
    Acts C (when_ b P) (if b then l else []) := by
  cases b with
  | true => exact h rfl
  | false => exact acts_skip C

/-- a program that asks for a listing before -/
theorem acts_step {C : Bytes → Prop} {P Q : Prog} {l : List (Path × Bytes)} (hQ : Acts C Q l)
    (h : ∀ s : State, P s = Q (s.1 + 1, s.2)) : Acts C P l := by
  intro s hs
  rw [h s]
  exact hQ (s.1 + 1, s.2) hs

/-- writing one file -/
theorem put_acts {C : Bytes → Prop} (H : Bytes → Str) (hH : Distinguishes H C) (b : Bytes) (hb : C b) (p : Path) (d : Disk) (hd : Within C d) (t : ℚ)
    (d' : Disk) (he : d' = if hashOf H d p ≠ H b then Function.update d p (some ⟨b, t⟩) else d) :
    Within C d' ∧ (∀ q, lastOf [(p, b)] q = none → d' q = d q) ∧ (∀ q c, lastOf [(p, b)] q = some c → contents d' q = some c) ∧
      ((∀ x ∈ [(p, b)], contents d x.1 = some x.2) → d' = d) := by
  subst he
  have hl : ∀ q, lastOf [(p, b)] q = if p = q then some b else none := by intro q; simp [lastOf]
  by_cases hne : hashOf H d p = H b
  · rw [if_neg (by simpa using hne)]
    refine ⟨hd, fun _ _ => rfl, ?_, fun _ => rfl⟩
    intro q c hq
    rw [hl] at hq
    split_ifs at hq with hpq
    subst hpq
    cases hq
    unfold hashOf at hne
    cases hf : d p with
    | none => rw [hf] at hne; exact absurd hne.symm (hH.1 b)
    | some f =>
      rw [hf] at hne
      unfold contents
      rw [hf, Option.map_some, hH.2 _ _ (hd p f hf) hb hne]
  · rw [if_pos hne]
    refine ⟨?_, ?_, ?_, ?_⟩
    · intro q f hq
      by_cases hqp : q = p
      · subst hqp
        rw [Function.update_self] at hq
        cases hq; exact hb
      · rw [Function.update_of_ne hqp] at hq
        exact hd q f hq
    · intro q hq
      rw [hl] at hq
      have : p ≠ q := by rintro rfl; simp at hq
      exact Function.update_of_ne this.symm _ _
    · intro q c hq
      rw [hl] at hq
      split_ifs at hq with hpq
      subst hpq
      cases hq
      simp [contents]
    · intro h
      have h1 := h (p, b) (by simp)
      exfalso
      apply hne
      unfold contents at h1
      unfold hashOf
      cases hf : d p with
      | none => rw [hf] at h1; simp at h1
      | some f => rw [hf] at h1; simp at h1; simp [h1]

variable (w : World)

theorem acts_http {C : Bytes → Prop} (hH : Distinguishes w.H C) (url : List Str) (p : Path) (b : Bytes) (hb : C b)
    (hw : ∀ k, w.web k (path url) = .gives b) : Acts C (httpFile w url p) [(p, b)] := by
  intro s hs
  have hr : httpFile w url p s = ((s.1 + 1, if hashOf w.H s.2 p ≠ w.H b then Function.update s.2 p (some ⟨b, w.clock s.1⟩) else s.2), none) := by
    unfold httpFile fromHttp
    rw [hw s.1]
  rw [hr]
  exact ⟨rfl, put_acts w.H hH b hb p s.2 hs _ _ rfl⟩

theorem acts_ftp {C : Bytes → Prop} (hH : Distinguishes w.H C) (host : List Str) (p : Path) (b : Bytes) (hb : C b) (m : Str) (t : ℚ)
    (ht : unixTime w.other (m.drop 4) = some t) (hw : ∀ k, w.ftp k (path host) = .file b m) : Acts C (ftpFile w host p) [(p, b)] := by
  intro s hs
  have hr : ftpFile w host p s = ((s.1 + 1, if hashOf w.H s.2 p ≠ w.H b then Function.update s.2 p (some ⟨b, t⟩) else s.2), none) := by
    unfold ftpFile fromFtp
    rw [hw s.1]
    simp only [ht]
    split_ifs <;> rfl
  rw [hr]
  exact ⟨rfl, put_acts w.H hH b hb p s.2 hs _ _ rfl⟩

/-! ## paths -/

theorem path_inj (dir : Str) (a b : Str) (ha : a.head? ≠ some '/') (hb : b.head? ≠ some '/') (h : path [dir, a] = path [dir, b]) : a = b := by
  unfold path join at h
  simp only [List.foldl_cons, List.foldl_nil, Option.getD_some, joinStep, ha, hb, if_false] at h
  split_ifs at h
  · exact List.append_cancel_left h
  · simpa using h

theorem path_two (dir a b : Str) (ha : a.head? ≠ some '/') (hb : b.head? ≠ some '/') (ha0 : a ≠ []) (ha1 : a.getLast? ≠ some '/') :
    path [dir, a, b] = path [dir, a ++ '/' :: b] := by
  have h1 : (a ++ '/' :: b).head? ≠ some '/' := by
    cases a with
    | nil => exact absurd rfl ha0
    | cons c r => simpa using ha
  unfold path join
  simp only [List.foldl_cons, List.foldl_nil, Option.getD_some, joinStep, ha, hb, h1, if_false]
  have h2 : ∀ x : Str, x ++ a ≠ [] := by intro x; simp [ha0]
  have h3 : ∀ x : Str, (x ++ a).getLast? ≠ some '/' := by
    intro x
    rw [List.getLast?_append]
    cases hl : a.getLast? with
    | none => simp [List.getLast?_eq_none_iff.1 hl] at ha0
    | some c => rw [hl] at ha1; simpa using ha1
  by_cases hd : dir = [] ∨ dir.getLast? = some '/'
  · simp only [if_pos hd]
    rw [if_neg (by intro h; exact h.elim (h2 dir) (h3 dir))]
    simp
  · simp only [if_neg hd]
    have : dir ++ '/' :: a = (dir ++ ['/']) ++ a := by simp
    rw [this, if_neg (by intro h; exact h.elim (h2 _) (h3 _))]
    simp

end Verif.Fetch
