import Verif.Sync.Model
import Mathlib.Tactic.Linarith
import Mathlib.Tactic.NormNum

/-!
# Mirrored directories (C79)
-/
namespace Verif.Sync
open Verif.Utilities (even Str Bytes)

variable {H : Type} [DecidableEq H] (hash : Bytes → H)

/-! ## Specification -/

/-- every file of the listing has a local copy with the same contents -/
def Mirrored (rs : List Remote) (d : Disk) : Prop := ∀ r ∈ rs, ∃ f, d r.name = some f ∧ f.data = r.data

/-- the network delivers whole files -/
def Delivers (x : Str → Transfer) (rs : List Remote) : Prop := ∀ r ∈ rs, (x r.name).chunks.flatten = r.data

/-- two files of a listing never have the same name -/
def Unique (rs : List Remote) : Prop := rs.Pairwise fun r s => r.name ≠ s.name

/-- an entry may replace an older one of the same name: its time is later by the two seconds the programs can tell apart,
or it has the same contents and is not older -/
def Replaces (r s : Remote) : Prop :=
  r.name = s.name → even r.mtime < even s.mtime ∨ (r.data = s.data ∧ even r.mtime ≤ even s.mtime)

/-- listings that were on the server, oldest first: names are unique, later entries replace earlier ones -/
def Orderly (ls : List (List Remote)) : Prop :=
  (∀ l ∈ ls, Unique l) ∧ ls.Pairwise fun l l' => ∀ r ∈ l, ∀ s ∈ l', Replaces r s

/-- no two different contents among those have the same hash -/
def NoCollision (ls : List (List Remote)) : Prop :=
  ∀ l ∈ ls, ∀ l' ∈ ls, ∀ r ∈ l, ∀ s ∈ l', hash r.data = hash s.data → r.data = s.data

/-- the listings that a history puts on the server -/
def publications : List Event → List (List Remote)
  | [] => []
  | .publish rs :: es => rs :: publications es
  | _ :: es => publications es

/-- runs are not interrupted, and the network delivers whole files: the files on the server at the time -/
def Sound (server : List Remote) : List Event → Prop
  | [] => True
  | .publish rs :: es => Sound rs es
  | .run _ x :: es => Delivers x server ∧ Sound server es
  | .crash .. :: _ => False

/-! ## One file -/

theorem states_last (x : Transfer) (r : Remote) : (states x r).getLast? = some ⟨x.chunks.flatten, r.mtime⟩ := by
  unfold states; simp

theorem pull_whole (o : Opts) (x : Transfer) (r : Remote) (f : Option LFile) :
    pull hash o x none r f =
      if wanted hash o r f && !o.LIST then some ⟨x.chunks.flatten, r.mtime⟩ else f := by
  unfold pull; rw [states_last]

theorem pull_step (o : Opts) (x : Transfer) (r : Remote) (f : Option LFile) (k : ℕ) (hk : k ≤ x.chunks.length)
    (h : wanted hash o r f = true) (hl : o.LIST = false) :
    pull hash o x (some (k + 1)) r f = some ⟨(x.chunks.take k).flatten, x.clock k⟩ := by
  unfold pull
  simp only [h, hl, Bool.not_false, Bool.and_self, ↓reduceIte]
  unfold states
  rw [List.getElem?_append_left (by simp; omega)]
  simp only [List.getElem?_map]
  rw [List.getElem?_range (by omega)]
  rfl

/-! ## The loop -/

theorem set_same (d : Disk) (p : Str) (f : Option LFile) : set d p f p = f := by simp [set]

theorem set_other (d : Disk) (p q : Str) (f : Option LFile) (h : q ≠ p) : set d p f q = d q := by simp [set, h]

theorem unique_eq {rs : List Remote} (hu : Unique rs) {r s : Remote} (hr : r ∈ rs) (hs : s ∈ rs)
    (h : r.name = s.name) : r = s := by
  induction rs with
  | nil => simp at hr
  | cons t rs ih =>
    obtain ⟨h1, h2⟩ := List.pairwise_cons.1 hu
    rcases List.mem_cons.1 hr with rfl | hr' <;> rcases List.mem_cons.1 hs with rfl | hs'
    · rfl
    · exact absurd h (h1 s hs')
    · exact absurd h.symm (h1 r hr')
    · exact ih h2 hr' hs'

theorem run_nil (o : Opts) (x : Str → Transfer) (d : Disk) : run hash o x [] d = d := rfl

theorem run_cons (o : Opts) (x : Str → Transfer) (r : Remote) (rs : List Remote) (d : Disk) :
    run hash o x (r :: rs) d = run hash o x rs (set d r.name (pull hash o (x r.name) none r (d r.name))) := rfl

/-- **C79** a run changes no file but those named in the listing -/
theorem run_other (o : Opts) (x : Str → Transfer) (rs : List Remote) (d : Disk) (p : Str) (h : ∀ r ∈ rs, r.name ≠ p) :
    run hash o x rs d p = d p := by
  induction rs generalizing d with
  | nil => rfl
  | cons r rs ih =>
    rw [run_cons, ih _ (fun s hs => h s (by simp [hs])), set_other _ _ _ _ (Ne.symm (h r (by simp)))]

theorem run_mem (o : Opts) (x : Str → Transfer) (rs : List Remote) (d : Disk) (hu : Unique rs) (r : Remote) (hr : r ∈ rs) :
    run hash o x rs d r.name = pull hash o (x r.name) none r (d r.name) := by
  induction rs generalizing d with
  | nil => simp at hr
  | cons s rs ih =>
    obtain ⟨h1, h2⟩ := List.pairwise_cons.1 hu
    rw [run_cons]
    rcases List.mem_cons.1 hr with rfl | hr'
    · rw [run_other hash o x rs _ _ (fun t ht => Ne.symm (h1 t ht)), set_same]
    · rw [ih _ h2 hr', set_other _ _ _ _ (Ne.symm (h1 r hr'))]

/-- **C79** what a run does to a file of the listing: it is left alone if it is there and not older (with `CHECKSUM`: its
hash is the remote one) and `CLOBBER` is not set, or with `LIST`; otherwise it is what was delivered, with the remote time -/
theorem run_file (o : Opts) (x : Str → Transfer) (rs : List Remote) (d : Disk) (hu : Unique rs) (r : Remote) (hr : r ∈ rs) :
    run hash o x rs d r.name =
      if o.LIST = true ∨ (o.CLOBBER = false ∧ ∃ f, d r.name = some f ∧
          if o.CHECKSUM then hash f.data = hash r.data else even r.mtime ≤ even f.mtime) then d r.name
      else some ⟨(x r.name).chunks.flatten, r.mtime⟩ := by
  rw [run_mem hash o x rs d hu r hr, pull_whole]
  unfold wanted test
  cases hl : o.LIST <;> cases hc : o.CLOBBER <;> cases hd : d r.name <;> cases hs : o.CHECKSUM <;> simp
  split_ifs <;> first | rfl | (exfalso; omega)

/-- **C79** with `LIST` nothing is changed -/
theorem list_idle (o : Opts) (x : Str → Transfer) (rs : List Remote) (d : Disk) (hl : o.LIST = true) :
    run hash o x rs d = d := by
  induction rs generalizing d with
  | nil => rfl
  | cons r rs ih =>
    rw [run_cons, pull_whole, hl]
    simp only [Bool.not_true, Bool.and_false, Bool.false_eq_true, ↓reduceIte]
    have : set d r.name (d r.name) = d := by
      funext q; unfold set; split_ifs with h
      · rw [h]
      · rfl
    rw [this, ih]

theorem printed_eq (o : Opts) (x : Str → Transfer) (rs : List Remote) (d e : Disk) (hu : Unique rs)
    (h : ∀ r ∈ rs, d r.name = e r.name) :
    printed hash o x rs d = (rs.filter fun r => wanted hash o r (e r.name)).map Remote.name := by
  induction rs generalizing d with
  | nil => rfl
  | cons r rs ih =>
    obtain ⟨h1, h2⟩ := List.pairwise_cons.1 hu
    unfold printed
    simp only
    rw [ih _ h2 (fun s hs => by
      rw [set_other _ _ _ _ (Ne.symm (h1 s hs)), h s (by simp [hs])]), h r (by simp)]
    cases hw : wanted hash o r (e r.name) <;> simp [hw]

/-- **C79** the names printed with `LIST` are those that the same run without it prints, and exactly the files that such a
run writes anew: all others keep their contents and times -/
theorem list_predicts (o : Opts) (x : Str → Transfer) (rs : List Remote) (d : Disk) (hu : Unique rs) :
    printed hash { o with LIST := true } x rs d = printed hash { o with LIST := false } x rs d ∧
      ∀ r ∈ rs, (r.name ∈ printed hash { o with LIST := true } x rs d →
          run hash { o with LIST := false } x rs d r.name = some ⟨(x r.name).chunks.flatten, r.mtime⟩) ∧
        (r.name ∉ printed hash { o with LIST := true } x rs d →
          run hash { o with LIST := false } x rs d r.name = d r.name) := by
  have hw : ∀ (b : Bool) r f, wanted hash { o with LIST := b } r f = wanted hash o r f := fun _ _ _ => rfl
  rw [printed_eq hash _ x rs d d hu (fun _ _ => rfl), printed_eq hash _ x rs d d hu (fun _ _ => rfl)]
  simp only [hw]
  refine ⟨trivial, fun r hr => ?_⟩
  have key : r.name ∈ (rs.filter fun r => wanted hash o r (d r.name)).map Remote.name ↔ wanted hash o r (d r.name) = true := by
    constructor
    · intro h
      obtain ⟨s, hs, hn⟩ := List.mem_map.1 h
      obtain ⟨hs1, hs2⟩ := List.mem_filter.1 hs
      rwa [unique_eq hu hs1 hr hn] at hs2
    · intro h; exact List.mem_map.2 ⟨r, List.mem_filter.2 ⟨hr, h⟩, rfl⟩
  rw [run_mem hash _ x rs d hu r hr, pull_whole, key, show wanted hash { o with LIST := false } r (d r.name) = wanted hash o r (d r.name) from rfl]
  refine ⟨fun h => by rw [h]; rfl, fun h => ?_⟩
  rw [Bool.not_eq_true] at h
  rw [h]; rfl

/-- **C79** a second run finds nothing to do -/
theorem second_run_idle (o : Opts) (x x' : Str → Transfer) (rs : List Remote) (d : Disk) (hu : Unique rs)
    (hc : o.CLOBBER = false) (hl : o.LIST = false) (hd : o.CHECKSUM = true → Delivers x rs) :
    run hash o x' rs (run hash o x rs d) = run hash o x rs d ∧ printed hash o x' rs (run hash o x rs d) = [] := by
  have hw : ∀ r ∈ rs, wanted hash o r (run hash o x rs d r.name) = false := by
    intro r hr
    rw [run_mem hash o x rs d hu r hr, pull_whole, hl]
    by_cases h : wanted hash o r (d r.name) = true
    · simp only [h, Bool.not_false, Bool.and_self, ↓reduceIte]
      unfold wanted test
      rw [hc]
      cases hs : o.CHECKSUM
      · simp
      · simp [hd hs r hr]
    · simp only [h, Bool.false_and, Bool.false_eq_true, ↓reduceIte]
  constructor
  · funext p
    by_cases hp : ∃ r ∈ rs, r.name = p
    · obtain ⟨r, hr, rfl⟩ := hp
      rw [run_mem hash o x' rs _ hu r hr, pull_whole, hw r hr]
      simp
    · exact run_other hash o x' rs _ p (fun r hr he => hp ⟨r, hr, he⟩)
  · rw [printed_eq hash o x' rs _ _ hu (fun _ _ => rfl), List.filter_eq_nil_iff.2 (fun r hr => by simp [hw r hr])]
    rfl

/-! ## Histories -/

theorem after_nil (w : World) : after hash w [] = w := rfl
theorem after_cons (w : World) (e : Event) (es : List Event) : after hash w (e :: es) = after hash (step hash w e) es := rfl

theorem after_append (w : World) (es es' : List Event) : after hash w (es ++ es') = after hash (after hash w es) es' := by
  unfold after; rw [List.foldl_append]

/-- local copies, of files that a listing of `all` names, are earlier versions: of the contents of some listing, and no
newer than it -/
def Kept (all past : List (List Remote)) (d : Disk) : Prop :=
  ∀ n f, d n = some f → (∃ l ∈ all, ∃ r ∈ l, r.name = n) →
    ∃ l ∈ past, ∃ r ∈ l, r.name = n ∧ f.data = r.data ∧ even f.mtime ≤ even r.mtime

theorem kept_run (all past : List (List Remote)) (server : List Remote) (hs : server ∈ past) (hu : Unique server)
    (o : Opts) (x : Str → Transfer) (hx : Delivers x server) (d : Disk) (h : Kept all past d) :
    Kept all past (run hash o x server d) := by
  intro n f hf hn
  by_cases hr : ∃ r ∈ server, r.name = n
  · obtain ⟨r, hr, rfl⟩ := hr
    rw [run_mem hash o x server d hu r hr, pull_whole] at hf
    split_ifs at hf with hw
    · rw [Option.some.injEq] at hf
      subst hf
      exact ⟨server, hs, r, hr, rfl, hx r hr, le_refl _⟩
    · exact h _ f hf hn
  · rw [run_other hash o x server d n (fun r hr' he => hr ⟨r, hr', he⟩)] at hf
    exact h _ f hf hn

/-- an uninterrupted run on copies of earlier versions mirrors the server -/
theorem mirrored_run (all past : List (List Remote)) (server : List Remote) (ho : Orderly (past ++ [server]))
    (hall : server ∈ all) (hn : NoCollision hash (past ++ [server]))
    (o : Opts) (hl : o.LIST = false) (x : Str → Transfer) (hx : Delivers x server) (d : Disk)
    (h : Kept all (past ++ [server]) d) : Mirrored server (run hash o x server d) := by
  intro r hr
  have hu : Unique server := ho.1 server (by simp)
  rw [run_file hash o x server d hu r hr]
  by_cases hc : o.LIST = true ∨ (o.CLOBBER = false ∧ ∃ f, d r.name = some f ∧
          if o.CHECKSUM then hash f.data = hash r.data else even r.mtime ≤ even f.mtime)
  · rw [if_pos hc]
    rcases hc with hc | ⟨-, f, hf, hc⟩
    · rw [hl] at hc; exact absurd hc (by simp)
    · refine ⟨f, hf, ?_⟩
      obtain ⟨l, hlm, s, hs, hsn, hsd, hst⟩ := h _ f hf ⟨server, hall, r, hr, rfl⟩
      by_cases hk : o.CHECKSUM = true
      · rw [if_pos hk] at hc
        rw [hsd] at hc ⊢
        exact hn l hlm server (by simp) s hs r hr hc
      · rw [if_neg hk] at hc
        rcases List.mem_append.1 hlm with hp | hp
        · have := (List.pairwise_append.1 ho.2).2.2 l hp server (by simp) s hs r hr hsn
          rcases this with h1 | ⟨h1, -⟩
          · exfalso; omega
          · rw [hsd, h1]
        · simp only [List.mem_singleton] at hp
          subst hp
          rw [hsd, unique_eq hu hs hr hsn]
  · rw [if_neg hc]
    exact ⟨_, rfl, hx r hr⟩

theorem history_kept (all : List (List Remote)) (es : List Event) (w : World) (past : List (List Remote))
    (hk : Kept all (past ++ [w.server]) w.disk) (hs : Sound w.server es)
    (ho : Orderly (past ++ [w.server] ++ publications es)) :
    ∃ past', past' ++ [(after hash w es).server] = past ++ [w.server] ++ publications es ∧
      Kept all (past' ++ [(after hash w es).server]) (after hash w es).disk := by
  induction es generalizing w past with
  | nil => exact ⟨past, by simp [after, publications], hk⟩
  | cons e es ih =>
    rw [after_cons]
    cases e with
    | publish rs =>
      obtain ⟨p, hp, hk'⟩ := ih ⟨rs, w.disk⟩ (past ++ [w.server])
        (fun n f hf hn => by
          obtain ⟨l, hl, h⟩ := hk n f hf hn
          exact ⟨l, by simp only [List.mem_append] at hl ⊢; tauto, h⟩) hs
        (by simpa [publications] using ho)
      exact ⟨p, by rw [show step hash w (.publish rs) = ⟨rs, w.disk⟩ from rfl, hp]; simp [publications], hk'⟩
    | run o x =>
      exact ih ⟨w.server, run hash o x w.server w.disk⟩ past
        (kept_run hash all _ w.server (by simp) (ho.1 _ (by simp)) o x hs.1 w.disk hk) hs.2 ho
    | crash o x i k => exact hs.elim

/-- **C79** after any history of publications and uninterrupted runs, with any options, a run without `LIST` leaves a copy
of every file then on the server: provided that the server never replaces a file by one that is not newer by two seconds
unless it is the same, that contents do not collide under the hash, and that the directory held none of these files when
the history began -/
theorem mirror_history (server : List Remote) (disk : Disk) (es : List Event) (hs : Sound server es)
    (ho : Orderly (server :: publications es)) (hn : NoCollision hash (server :: publications es))
    (hd : ∀ l ∈ server :: publications es, ∀ r ∈ l, disk r.name = none)
    (o : Opts) (hl : o.LIST = false) (x : Str → Transfer) (hx : Delivers x (after hash ⟨server, disk⟩ es).server) :
    Mirrored (after hash ⟨server, disk⟩ es).server (after hash ⟨server, disk⟩ (es ++ [.run o x])).disk := by
  obtain ⟨past, hp, hk⟩ := history_kept hash (server :: publications es) es ⟨server, disk⟩ []
    (by
      rintro n f hf ⟨l, hl, r, hr, rfl⟩
      rw [show (World.disk ⟨server, disk⟩) r.name = disk r.name from rfl, hd l hl r hr] at hf
      exact absurd hf (by simp)) hs ho
  rw [List.nil_append, List.singleton_append] at hp
  rw [after_append]
  refine mirrored_run hash (server :: publications es) past _ ?_ ?_ ?_ o hl x hx _ hk
  · rw [hp]; exact ho
  · rw [← hp]; simp
  · rw [hp]; exact hn

/-- **C79** whatever happened before, interruptions included, a run with `CLOBBER`, or with `CHECKSUM` unless hashes of
different contents agree, leaves a copy of every file on the server -/
theorem checked_run (o : Opts) (hl : o.LIST = false) (x : Str → Transfer) (rs : List Remote) (d : Disk) (hu : Unique rs)
    (hx : Delivers x rs) (ho : o.CLOBBER = true ∨ o.CHECKSUM = true ∧
      ∀ r ∈ rs, ∀ f, d r.name = some f → hash f.data = hash r.data → f.data = r.data) :
    Mirrored rs (run hash o x rs d) := by
  intro r hr
  rw [run_file hash o x rs d hu r hr, hl]
  rcases ho with ho | ⟨ho, hh⟩
  · rw [ho]
    simp only [Bool.false_eq_true, Bool.true_eq_false, false_and, or_self, ↓reduceIte]
    exact ⟨_, rfl, hx r hr⟩
  · rw [ho]
    simp only [Bool.false_eq_true, false_or, ↓reduceIte]
    split_ifs with hc
    · obtain ⟨-, f, hf, he⟩ := hc
      exact ⟨f, hf, hh r hr f hf he⟩
    · exact ⟨_, rfl, hx r hr⟩

/-- **C79** degree one and SLR files of `podaac_cumulus`, stamped with the time the program started: whatever earlier runs
left behind, interrupted or not, is replaced as long as its time is two seconds earlier -/
theorem stamped_run (o : Opts) (hl : o.LIST = false) (hc : o.CHECKSUM = false) (x : Str → Transfer) (start : ℚ)
    (rs : List Remote) (d : Disk) (hu : Unique rs) (hx : Delivers x rs)
    (hd : ∀ r ∈ rs, ∀ f, d r.name = some f → f.mtime + 2 ≤ start) :
    Mirrored rs (run hash o x (stamped start rs) d) := by
  intro r hr
  have hm : ({ r with mtime := start } : Remote) ∈ stamped start rs := List.mem_map.2 ⟨r, hr, rfl⟩
  have hu' : Unique (stamped start rs) := by
    unfold stamped Unique
    rw [List.pairwise_map]
    exact hu
  have := run_file hash o x _ d hu' _ hm
  simp only at this
  rw [this, hl, hc]
  simp only [Bool.false_eq_true, false_or, ↓reduceIte]
  rw [if_neg]
  · exact ⟨_, rfl, hx r hr⟩
  · rintro ⟨-, f, hf, hle⟩
    have h2 := hd r hr f hf
    have : even f.mtime < even start := by
      unfold even
      have h3 : ⌊f.mtime / 2⌋ + 1 ≤ ⌊start / 2⌋ := by
        rw [Int.le_floor]
        push_cast
        have := Int.floor_le (f.mtime / 2)
        linarith
      omega
    omega

/-! ## Interruptions -/

/-- **C79** an interrupted run leaves complete copies of the files before, the others untouched, and of the file at which it
stopped (if it was wanted): the old copy, or the leading part of what was delivered with the time of the clock, or all of
it -/
theorem crash_state (o : Opts) (hl : o.LIST = false) (x : Str → Transfer) (i k : ℕ) (rs : List Remote) (d : Disk)
    (hu : Unique rs) (r : Remote) (hr : rs[i]? = some r) (hw : wanted hash o r (d r.name) = true) :
    (∀ p, (∀ s ∈ rs, s.name ≠ p) → crash hash o x i k rs d p = d p) ∧
    (∀ (j : ℕ) s, j < i → rs[j]? = some s → crash hash o x i k rs d s.name = run hash o x rs d s.name) ∧
    (∀ (j : ℕ) s, i < j → rs[j]? = some s → crash hash o x i k rs d s.name = d s.name) ∧
    crash hash o x i k rs d r.name =
      if k = 0 then d r.name
      else if k ≤ (x r.name).chunks.length + 1 then
        some ⟨((x r.name).chunks.take (k - 1)).flatten, (x r.name).clock (k - 1)⟩
      else some ⟨(x r.name).chunks.flatten, r.mtime⟩ := by
  have hi : i < rs.length := (List.getElem?_eq_some_iff.1 hr).1
  have hri := (List.getElem?_eq_some_iff.1 hr).2
  have hne : ∀ (j : ℕ) s, j ≠ i → rs[j]? = some s → s.name ≠ r.name := by
    intro j s hj hs
    obtain ⟨hj1, hj2⟩ := List.getElem?_eq_some_iff.1 hs
    rw [← hj2, ← hri]
    rcases Nat.lt_or_gt_of_ne hj with h | h
    · exact List.pairwise_iff_getElem.1 hu j i hj1 hi h
    · exact Ne.symm (List.pairwise_iff_getElem.1 hu i j hi hj1 h)
  have ht : ∀ p, (∀ (j : ℕ) s, j < i → rs[j]? = some s → s.name ≠ p) → run hash o x (rs.take i) d p = d p := by
    intro p hp
    apply run_other
    intro s hs
    obtain ⟨j, hj, rfl⟩ := List.mem_iff_getElem.1 hs
    rw [List.length_take] at hj
    rw [List.getElem_take]
    exact hp j _ (by omega) (by rw [List.getElem?_eq_getElem])
  unfold crash
  simp only [hr]
  refine ⟨?_, ?_, ?_, ?_⟩
  · intro p hp
    rw [set_other _ _ _ _ (Ne.symm (hp r (List.mem_of_getElem? hr))), ht p (fun j s _ hs => hp s (List.mem_of_getElem? hs))]
  · intro j s hj hs
    rw [set_other _ _ _ _ (hne j s (by omega) hs), run_mem hash o x rs d hu s (List.mem_of_getElem? hs)]
    refine run_mem hash o x (rs.take i) d (List.Pairwise.sublist (List.take_sublist i rs) hu) s ?_
    rw [List.mem_iff_getElem?]
    exact ⟨j, by rw [List.getElem?_take_of_lt hj, hs]⟩
  · intro j s hj hs
    rw [set_other _ _ _ _ (hne j s (by omega) hs)]
    apply ht
    intro j' s' hj' hs'
    obtain ⟨a1, a2⟩ := List.getElem?_eq_some_iff.1 hs
    obtain ⟨b1, b2⟩ := List.getElem?_eq_some_iff.1 hs'
    rw [← a2, ← b2]
    exact List.pairwise_iff_getElem.1 hu j' j b1 a1 (by omega)
  · rw [set_same, ht r.name (fun j s hj hs => hne j s (by omega) hs)]
    cases k with
    | zero => simp [pull, hw, hl]
    | succ k =>
      rw [if_neg (by omega)]
      by_cases hk : k ≤ (x r.name).chunks.length
      · rw [if_pos (by omega), pull_step hash o _ r _ k hk hw hl]; rfl
      · rw [if_neg (by omega)]
        unfold pull
        rw [hw, hl]
        simp only [Bool.not_false, Bool.and_self, ↓reduceIte]
        have hlen : (states (x r.name) r).length = (x r.name).chunks.length + 2 := by unfold states; simp
        rw [states_last]
        rcases Nat.lt_or_ge k ((x r.name).chunks.length + 2) with hk2 | hk2
        · have hlast := states_last (x r.name) r
          rw [List.getLast?_eq_getElem?, hlen, show (x r.name).chunks.length + 2 - 1 = k by omega] at hlast
          rw [hlast]; rfl
        · rw [List.getElem?_eq_none (by omega)]; rfl

/-- **C79** (violated by the programs) a copy whose time is not before that of the remote file is kept by all later runs
without `CHECKSUM` and `CLOBBER`, whatever it contains, until a version with a later time appears on the server -/
theorem newer_kept (p : Str) (f : LFile) (es : List Event) (w : World) (hw : w.disk p = some f)
    (hs : ∀ l ∈ w.server :: publications es, Unique l ∧ ∀ r ∈ l, r.name = p → even r.mtime ≤ even f.mtime)
    (he : ∀ e ∈ es, (∃ rs, e = .publish rs) ∨ ∃ o x, e = .run o x ∧ o.CHECKSUM = false ∧ o.CLOBBER = false) :
    (after hash w es).disk p = some f := by
  induction es generalizing w with
  | nil => exact hw
  | cons e es ih =>
    rw [after_cons]
    rcases he e (by simp) with ⟨rs, rfl⟩ | ⟨o, x, rfl, hc, hb⟩
    · exact ih ⟨rs, w.disk⟩ hw (fun l hl => hs l (by
        simp only [publications, List.mem_cons] at hl ⊢; tauto)) (fun e he' => he e (by simp [he']))
    · refine ih ⟨w.server, run hash o x w.server w.disk⟩ ?_ hs (fun e he' => he e (by simp [he']))
      show run hash o x w.server w.disk p = some f
      by_cases hp : ∃ r ∈ w.server, r.name = p
      · obtain ⟨r, hr, rfl⟩ := hp
        obtain ⟨hu, hle⟩ := hs w.server (by simp)
        rw [run_file hash o x w.server w.disk hu r hr, if_pos]
        · exact hw
        · exact Or.inr ⟨hb, f, hw, by rw [hc]; simpa using hle r hr rfl⟩
      · rw [run_other hash o x _ _ p (fun r hr hn => hp ⟨r, hr, hn⟩), hw]

/-- **C79** (violated by the programs) a run interrupted while a file is written, at a clock not before the time of the
remote file, leaves a leading part that every later run without `CHECKSUM` and `CLOBBER` keeps, for the same server -/
theorem crash_kept (o : Opts) (hl : o.LIST = false) (x : Str → Transfer) (i k : ℕ) (w : World)
    (hu : Unique w.server) (r : Remote) (hr : w.server[i]? = some r) (hw : wanted hash o r (w.disk r.name) = true)
    (hk : k ≤ (x r.name).chunks.length) (hclock : even r.mtime ≤ even ((x r.name).clock k))
    (runs : List (Opts × (Str → Transfer))) (hruns : ∀ q ∈ runs, q.1.CHECKSUM = false ∧ q.1.CLOBBER = false) :
    (after hash w (.crash o x i (k + 1) :: runs.map fun q => .run q.1 q.2)).disk r.name =
      some ⟨((x r.name).chunks.take k).flatten, (x r.name).clock k⟩ := by
  have hcr := (crash_state hash o hl x i (k + 1) w.server w.disk hu r hr hw).2.2.2
  rw [if_neg (by omega), if_pos (by omega)] at hcr
  rw [after_cons]
  have hpub : publications (runs.map fun q => Event.run q.1 q.2) = [] := by
    induction runs with
    | nil => rfl
    | cons q runs ih => exact ih (fun q' hq' => hruns q' (by simp [hq']))
  apply newer_kept hash r.name
  · exact hcr
  · intro l hl'
    rw [hpub] at hl'
    simp only [List.mem_singleton] at hl'
    subst hl'
    refine ⟨hu, ?_⟩
    intro s hs hn
    rw [unique_eq hu hs (List.mem_of_getElem? hr) hn]
    exact hclock
  · intro e he
    obtain ⟨q, hq, rfl⟩ := List.mem_map.1 he
    exact Or.inr ⟨q.1, q.2, rfl, (hruns q hq).1, (hruns q hq).2⟩

/-- **C79** (violated by the programs) a file of which the network delivers only a part is stored with the remote time, and
kept by all later runs without `CHECKSUM` and `CLOBBER` -/
theorem short_read_kept (o : Opts) (hl : o.LIST = false) (x : Str → Transfer) (w : World) (hu : Unique w.server)
    (r : Remote) (hr : r ∈ w.server) (hw : wanted hash o r (w.disk r.name) = true)
    (runs : List (Opts × (Str → Transfer))) (hruns : ∀ q ∈ runs, q.1.CHECKSUM = false ∧ q.1.CLOBBER = false) :
    (after hash w (.run o x :: runs.map fun q => .run q.1 q.2)).disk r.name =
      some ⟨(x r.name).chunks.flatten, r.mtime⟩ := by
  rw [after_cons]
  have hpub : publications (runs.map fun q => Event.run q.1 q.2) = [] := by
    induction runs with
    | nil => rfl
    | cons q runs ih => exact ih (fun q' hq' => hruns q' (by simp [hq']))
  apply newer_kept hash r.name
  · show run hash o x w.server w.disk r.name = _
    rw [run_mem hash o x _ _ hu r hr, pull_whole, hw, hl]; rfl
  · intro l hl'
    rw [hpub] at hl'
    simp only [List.mem_singleton] at hl'
    subst hl'
    refine ⟨hu, ?_⟩
    intro s hs hn
    rw [unique_eq hu hs hr hn]
  · intro e he
    obtain ⟨q, hq, rfl⟩ := List.mem_map.1 he
    exact Or.inr ⟨q.1, q.2, rfl, (hruns q hq).1, (hruns q hq).2⟩

end Verif.Sync
