import Verif.Drive.Model
import Verif.Utilities.Files
import Verif.Utilities.Paths
import Verif.Fetch.Spec

/-!
# C123: PO.DAAC Drive and collection metadata
-/
namespace Verif.Drive
open Verif.Utilities Verif.Fetch

/-- **C123** which credentials are sent: those that are given if there is a user name or a password, whatever `.netrc` holds, else
those of `.netrc` -/
theorem credentials_spec (w : Server) (u p : Option Str) :
    ((∃ a r, u = some (a :: r)) ∨ (∃ a r, p = some (a :: r)) → credentials w u p = .ok ⟨u, p⟩) ∧
    ((u = none ∨ u = some []) → (p = none ∨ p = some []) →
      (w.netrc = .missing → credentials w u p = .error .netrc) ∧ (w.netrc = .noHost → credentials w u p = .error .type) ∧
      ∀ a b, w.netrc = .entry a b → credentials w u p = .ok ⟨some a, some b⟩) := by
  constructor
  · rintro (⟨a, r, rfl⟩ | ⟨a, r, rfl⟩) <;> simp [credentials, truthy]
  · intro hu hp
    have h : (truthy u || truthy p) = false := by
      rcases hu with rfl | rfl <;> rcases hp with rfl | rfl <;> rfl
    simp only [credentials, h]
    refine ⟨fun e => by rw [e]; rfl, fun e => by rw [e]; rfl, fun a b e => by rw [e]; rfl⟩

/-- the credentials a call installs, if it gets that far -/
def installs (w : Server) (l : Login) : Option Creds :=
  if l.build then
    match credentials w l.user l.pass with
    | .ok c => some c
    | .error _ => none
  else none

theorem signIn_opener (w : Server) (l : Login) (s : Session) :
    (signIn w l s).1.opener = (installs w l).or s.opener ∧ (signIn w l s).1.disk = s.disk := by
  unfold signIn installs
  cases l.build
  · exact ⟨rfl, rfl⟩
  · cases h : credentials w l.user l.pass <;> exact ⟨rfl, rfl⟩

theorem list_session (w : Server) (host : List Str) (l : Login) (pat : Option (Str → Bool)) (sort : Bool) (s : Session) :
    (driveList w host l pat sort s).1 = (signIn w l s).1 := by
  unfold driveList
  rcases h : signIn w l s with ⟨s1, _ | _⟩
  · rfl
  · dsimp only
    cases join host with
    | none => rfl
    | some u =>
      dsimp only
      cases w.list s1.opener u with
      | gives page => dsimp only; split <;> rfl
      | http => rfl
      | url => rfl
      | other => rfl

theorem file_opener (w : Server) (now : ℚ) (host : List Str) (l : Login) (loc : Option Path) (hash : Str) (s : Session) :
    (fromDrive w now host l loc hash s).1.opener = (signIn w l s).1.opener := by
  unfold fromDrive
  rcases h : signIn w l s with ⟨s1, _ | _⟩
  · rfl
  · dsimp only
    cases join host with
    | none => rfl
    | some u =>
      dsimp only
      cases w.file s1.opener u with
      | gives b =>
        dsimp only
        cases loc with
        | none => rfl
        | some p => dsimp only; split <;> rfl
      | http => rfl
      | url => rfl
      | other => rfl

/-- **C123** a call without `build` uses the credentials of the last call that has installed any, be it that these were refused -/
theorem run_opener (w : Server) (cs : List Call) (s : Session) :
    (run w cs s).opener = ((cs.filterMap fun c => installs w c.login).getLast?).or s.opener := by
  induction cs using List.reverseRecOn with
  | nil => rfl
  | append_singleton cs c ih =>
    have : run w (cs ++ [c]) s = after w c (run w cs s) := by simp [run]
    have hstep : (after w c (run w cs s)).opener = (installs w c.login).or (run w cs s).opener := by
      cases c with
      | list host l pat sort => exact (congrArg Session.opener (list_session w host l pat sort _)).trans (signIn_opener w l _).1
      | file now host l loc hash => exact (file_opener w now host l loc hash _).trans (signIn_opener w l _).1
    rw [this, hstep, ih, List.filterMap_append]
    cases h : installs w c.login <;> simp [List.filterMap, h]

/-- **C123** signing in: without `build` nothing is asked; with it the call goes on exactly if the server accepts the credentials, and
says what is wrong if not -/
theorem signIn_result (w : Server) (l : Login) (s : Session) :
    (l.build = false → (signIn w l s).2 = .ok ()) ∧
    (l.build = true → (∀ e, credentials w l.user l.pass = .error e → (signIn w l s).2 = .error e) ∧
      ∀ c, credentials w l.user l.pass = .ok c →
        (w.check (some c) = .gives () → (signIn w l s).2 = .ok ()) ∧
        (w.check (some c) = .http → (signIn w l s).2 = .error .credentials) ∧
        (w.check (some c) = .url → (signIn w l s).2 = .error .internet) ∧
        (w.check (some c) = .other → (signIn w l s).2 = .error .raised)) := by
  unfold signIn checkCredentials
  constructor
  · intro h; rw [h]; rfl
  · intro h
    rw [h]
    constructor
    · intro e he; rw [he]; rfl
    · intro c hc
      rw [hc]
      refine ⟨fun x => ?_, fun x => ?_, fun x => ?_, fun x => ?_⟩ <;> simp only [x] <;> rfl

/-- **C123** wrong credentials stay: after a call that was refused, calls without `build` go on with them, and their requests fail as
the server says -/
theorem refused_stays (w : Server) (c : Creds) (l : Login) (hl : installs w l = some c) (hb : w.check (some c) = .http) (s : Session)
    (host : List Str) (pat : Option (Str → Bool)) (sort : Bool) (now : ℚ) (u : Str) (hu : join host = some u)
    (hf : w.file (some c) u = .http) (loc : Option Path) (hash : Str) :
    (driveList w host l pat sort s).2 = .error .credentials ∧
      (fromDrive w now host ⟨false, none, none⟩ loc hash (driveList w host l pat sort s).1).2 = .error .download := by
  have hs : signIn w l s = ({ s with opener := some c }, .error .credentials) := by
    unfold signIn
    unfold installs at hl
    cases hlb : l.build with
    | false => rw [hlb] at hl; simp at hl
    | true =>
      rw [hlb] at hl
      cases hc : credentials w l.user l.pass with
      | error e => rw [hc] at hl; simp at hl
      | ok c' =>
        rw [hc] at hl
        simp only [if_true, Option.some.injEq] at hl
        subst hl
        simp [checkCredentials, hb]
  constructor
  · unfold driveList; rw [hs]
  · rw [list_session, hs]
    unfold fromDrive signIn
    simp [hu, hf]

/-- **C123** the listing of a directory with as many times as names: the pairs of name and time that fit the pattern, sorted by name
if asked for, else in the order of the page; the disk is left alone -/
theorem list_spec (w : Server) (host : List Str) (l : Login) (pat : Option (Str → Bool)) (sort : Bool) (s : Session) (u : Str)
    (page : Listing) (hs : (signIn w l s).2 = .ok ()) (hu : join host = some u)
    (hp : w.list (signIn w l s).1.opener u = .gives page) (hlen : page.names.length = page.times.length) :
    (driveList w host l pat sort s).1.disk = s.disk ∧
    ∃ r : List (Str × Option ℚ), (driveList w host l pat sort s).2 = .ok (r.map Prod.fst, r.map Prod.snd) ∧
      r.Perm ((page.names.zip (page.times.map (unixTime w.dateutil))).filter fun q => (pat.map fun p => p q.1).getD true) ∧
      (sort = true → (r.map Prod.fst).Pairwise (· ≤ ·)) ∧
      (sort = false → r = (page.names.zip (page.times.map (unixTime w.dateutil))).filter fun q => (pat.map fun p => p q.1).getD true) := by
  refine ⟨(congrArg Session.disk (list_session w host l pat sort s)).trans (signIn_opener w l s).2, ?_⟩
  obtain ⟨r, h1, h2, h3, h4⟩ := listing_aligned pat sort page.names (page.times.map (unixTime w.dateutil)) (by simpa using hlen)
  refine ⟨r, ?_, h2, h3, h4⟩
  unfold driveList
  rcases h : signIn w l s with ⟨s1, e | ⟨⟩⟩
  · rw [h] at hs; simp at hs
  · rw [h] at hp
    simp [hu, hp, h1]

/-- **C123** failures of the listing -/
theorem list_fails (w : Server) (host : List Str) (l : Login) (pat : Option (Str → Bool)) (sort : Bool) (s : Session) (u : Str)
    (hu : join host = some u) :
    (∀ e, (signIn w l s).2 = .error e → (driveList w host l pat sort s).2 = .error e) ∧
    ((signIn w l s).2 = .ok () → (w.list (signIn w l s).1.opener u = .http ∨ w.list (signIn w l s).1.opener u = .url) →
      (driveList w host l pat sort s).2 = .error .list) := by
  constructor
  · intro e he
    unfold driveList
    rcases h : signIn w l s with ⟨s1, e' | ⟨⟩⟩
    · rw [h] at he; simpa using he
    · rw [h] at he; simp at he
  · intro hs hp
    unfold driveList
    rcases h : signIn w l s with ⟨s1, e | ⟨⟩⟩
    · rw [h] at hs; simp at hs
    · rw [h] at hp
      rcases hp with hp | hp <;> simp [hu, hp]

/-- **C123** a download returns the contents on the server; the local file is written exactly if a place is given and the checksum
differs, and then holds these contents; every other file is left alone -/
theorem file_spec (w : Server) (now : ℚ) (host : List Str) (l : Login) (loc : Option Path) (hash : Str) (s : Session) (u : Str)
    (b : Bytes) (hs : (signIn w l s).2 = .ok ()) (hu : join host = some u) (hp : w.file (signIn w l s).1.opener u = .gives b) :
    (fromDrive w now host l loc hash s).2 = .ok b ∧
    (∀ q, loc ≠ some q → (fromDrive w now host l loc hash s).1.disk q = s.disk q) ∧
    ∀ p, loc = some p → (hash ≠ w.hash b → (fromDrive w now host l loc hash s).1.disk p = some ⟨b, now⟩) ∧
      (hash = w.hash b → (fromDrive w now host l loc hash s).1.disk p = s.disk p) := by
  have hd := (signIn_opener w l s).2
  rcases h : signIn w l s with ⟨s1, e | ⟨⟩⟩
  · rw [h] at hs; simp at hs
  rw [h] at hp hd
  have hd : s1.disk = s.disk := hd
  have e : fromDrive w now host l loc hash s = match loc with
      | some p => if hash ≠ w.hash b then ({ s1 with disk := Function.update s1.disk p (some ⟨b, now⟩) }, .ok b) else (s1, .ok b)
      | none => (s1, .ok b) := by
    unfold fromDrive
    rw [h]
    simp only [hu, hp]
    cases loc <;> rfl
  rw [e]
  cases loc with
  | none => exact ⟨rfl, fun q _ => congrFun hd q, fun p hp => by cases hp⟩
  | some p =>
    by_cases hh : hash = w.hash b
    · simp only [hh, ne_eq, not_true_eq_false, if_false]
      exact ⟨trivial, fun q _ => congrFun hd q, fun p' _ => ⟨fun h => h.elim, fun _ => congrFun hd p'⟩⟩
    · simp only [ne_eq, hh, not_false_eq_true, if_true]
      refine ⟨trivial, fun q hq => ?_, fun p' hp' => ⟨fun _ => ?_, fun h => h.elim⟩⟩
      · rw [Function.update_of_ne (fun h => hq (by rw [h])), hd]
      · cases hp'
        rw [Function.update_self]

/-- **C123** what a download raises: the error of signing in, or the download error if the server refuses the request or cannot be
reached; any other exception passes -/
theorem file_raises (w : Server) (now : ℚ) (host : List Str) (l : Login) (loc : Option Path) (hash : Str) (s : Session) (u : Str)
    (hu : join host = some u) :
    (∀ e, (signIn w l s).2 = .error e → (fromDrive w now host l loc hash s).2 = .error e) ∧
    ((signIn w l s).2 = .ok () →
      (w.file (signIn w l s).1.opener u = .http ∨ w.file (signIn w l s).1.opener u = .url →
        (fromDrive w now host l loc hash s).2 = .error .download) ∧
      (w.file (signIn w l s).1.opener u = .other → (fromDrive w now host l loc hash s).2 = .error .raised)) := by
  unfold fromDrive
  rcases h : signIn w l s with ⟨s1, e' | ⟨⟩⟩
  · exact ⟨fun e he => by simpa using he, fun he => by simp at he⟩
  · refine ⟨fun e he => by simp at he, fun _ => ⟨?_, ?_⟩⟩
    · rintro (x | x) <;> (have x' : w.file s1.opener u = _ := x; simp [hu, x'])
    · intro x
      have x' : w.file s1.opener u = _ := x
      simp [hu, x']

/-- **C123** a download that fails leaves every local file alone -/
theorem file_fails (w : Server) (now : ℚ) (host : List Str) (l : Login) (loc : Option Path) (hash : Str) (s : Session) (e : Failure)
    (h : (fromDrive w now host l loc hash s).2 = .error e) : (fromDrive w now host l loc hash s).1.disk = s.disk := by
  have hd := (signIn_opener w l s).2
  revert h
  unfold fromDrive
  rcases h : signIn w l s with ⟨s1, e' | ⟨⟩⟩
  · rw [h] at hd; exact fun _ => hd
  · rw [h] at hd
    dsimp only
    cases join host with
    | none => exact fun _ => hd
    | some u =>
      dsimp only
      cases w.file s1.opener u with
      | gives b =>
        dsimp only
        cases loc with
        | none => simp
        | some p => dsimp only; split <;> simp
      | http => exact fun _ => hd
      | url => exact fun _ => hd
      | other => exact fun _ => hd

/-- **C123** with the checksum of the local file, and a hash function that tells the contents apart, the local file holds the contents
on the server afterwards, and the same download again changes nothing -/
theorem file_mirror {C : Bytes → Prop} (w : Server) (hH : Distinguishes w.hash C) (now later : ℚ) (host : List Str) (l : Login) (p : Path)
    (s : Session) (u : Str) (b : Bytes) (hs : (signIn w l s).2 = .ok ()) (hu : join host = some u)
    (hp : w.file (signIn w l s).1.opener u = .gives b) (hb : C b) (hC : Within C s.disk) :
    let s' := (fromDrive w now host l (some p) (hashOf w.hash s.disk p) s).1
    contents s'.disk p = some b ∧
      (fromDrive w later host ⟨false, none, none⟩ (some p) (hashOf w.hash s'.disk p) s').1.disk = s'.disk := by
  intro s'
  obtain ⟨-, -, h3⟩ := file_spec w now host l (some p) (hashOf w.hash s.disk p) s u b hs hu hp
  obtain ⟨h4, h5⟩ := h3 p rfl
  have hcont : contents s'.disk p = some b := by
    by_cases hh : hashOf w.hash s.disk p = w.hash b
    · unfold contents
      rw [show s'.disk p = s.disk p from h5 hh]
      unfold hashOf at hh
      cases hf : s.disk p with
      | none => rw [hf] at hh; exact absurd hh.symm (hH.1 b)
      | some f =>
        rw [hf] at hh
        rw [Option.map_some, hH.2 _ _ (hC p f hf) hb hh]
    · unfold contents
      rw [show s'.disk p = some ⟨b, now⟩ from h4 hh]
      rfl
  refine ⟨hcont, ?_⟩
  have ho : s'.opener = (signIn w l s).1.opener := file_opener w now host l _ _ s
  have hhash : hashOf w.hash s'.disk p = w.hash b := by
    unfold hashOf contents at *
    cases hf : s'.disk p with
    | none => rw [hf] at hcont; simp at hcont
    | some f => rw [hf] at hcont; simp at hcont; dsimp only; rw [hcont]
  obtain ⟨-, q2, q3⟩ := file_spec w later host ⟨false, none, none⟩ (some p) (hashOf w.hash s'.disk p) s' u b rfl hu (by
    show w.file s'.opener u = _
    rw [ho, hp])
  funext q
  by_cases hq : q = p
  · rw [hq]; exact (q3 p rfl).2 hhash
  · exact q2 q (fun h => hq (Option.some.inj h).symm)

theorem mapM_ok {A B : Type} (f : A → Option B) (g : A → B) : ∀ l : List A, (∀ x ∈ l, f x = some (g x)) → l.mapM f = some (l.map g)
  | [], _ => rfl
  | x :: l, h => by
    rw [List.mapM_cons, h x (by simp), mapM_ok f g l fun y hy => h y (by simp [hy])]
    rfl

/-- **C123** the list of the GSFC mascons: the complete addresses of all links in which the pattern is found, in the order of the page
or sorted; nothing is lost or doubled by sorting -/
theorem gsfc_spec (page : Str → Answer (List Str)) (host : List Str) (pat : Option (Str → Bool)) (sort : Bool) (u : Str)
    (links : List Str) (name : Str → Str) (hu : join host = some u) (hp : page u = .gives links)
    (hn : ∀ k ∈ links, gsfcName host k = some (name k)) :
    ∃ r, gsfcList page host pat sort = .ok r ∧
      r.Perm ((links.map name).filter fun n => (pat.map fun p => p n).getD true) ∧
      (sort = true → r.Pairwise (· ≤ ·)) ∧
      (sort = false → r = (links.map name).filter fun n => (pat.map fun p => p n).getD true) := by
  have hm := mapM_ok _ name links hn
  cases pat with
  | none =>
    refine ⟨if sort then List.insertionSort (fun a b => a ≤ b) (links.map name) else links.map name, ?_, ?_⟩
    · unfold gsfcList
      rw [hu]; dsimp only; rw [hp]; dsimp only; rw [hm]
    · cases sort with
      | false => exact ⟨by simp, by simp, by simp⟩
      | true => exact ⟨by simpa using List.perm_insertionSort _ _, fun _ => List.pairwise_insertionSort _ _, by simp⟩
  | some p =>
    refine ⟨if sort then List.insertionSort (fun a b => a ≤ b) ((links.map name).filter p) else (links.map name).filter p, ?_, ?_⟩
    · unfold gsfcList
      rw [hu]; dsimp only; rw [hp]; dsimp only; rw [hm]
    · cases sort with
      | false => exact ⟨List.Perm.refl _, by simp, fun _ => rfl⟩
      | true => exact ⟨List.perm_insertionSort _ _, fun _ => List.pairwise_insertionSort _ _, by simp⟩

/-- **C123** links are completed with the server: for a path with leading slash this is its address, but a relative link is taken
from the root of the server as well, and a link with its own scheme and server is put behind the server too -/
theorem gsfc_name (h : Str) (dir : List Str) (a : Str) (rest : List Str) (ha : NoSlash a) (ha0 : a ≠ [])
    (hr : ∀ w ∈ rest, NoSlash w ∧ w ≠ []) (hh : h ≠ []) (hl : h.getLast? ≠ some '/') :
    gsfcName (h :: dir) (pathOf ('/' :: a) rest) = some (pathOf h (a :: rest)) ∧
    (a ∉ schemes → gsfcName (h :: dir) (pathOf a rest) = some (pathOf h (a :: rest))) ∧
    ∀ sch ∈ schemes, gsfcName (h :: dir) (pathOf (sch ++ '/' :: '/' :: a) rest) =
      some (pathOf (h ++ '/' :: (sch ++ '/' :: '/' :: a)) rest) := by
  have hj := join_pathOf h (a :: rest) hh hl (by
    intro w hw
    rcases List.mem_cons.1 hw with rfl | hw
    exacts [⟨ha, ha0⟩, hr w hw])
  refine ⟨?_, fun hs => ?_, fun sch hsch => ?_⟩
  · unfold gsfcName
    rw [urlSplit_absolute a rest ha ha0 hr]
    exact hj
  · unfold gsfcName
    rw [urlSplit_relative a rest ha ha0 hs hr]
    exact hj
  · unfold gsfcName
    rw [urlSplit_url sch a rest hsch ha ha0 hr]
    obtain ⟨n1, n2⟩ := noSlash_scheme sch hsch
    have hs : joinStep h (sch ++ '/' :: '/' :: a) = h ++ '/' :: (sch ++ '/' :: '/' :: a) := by
      unfold joinStep
      rw [if_neg, if_neg]
      · rintro (x | x); exacts [hh x, hl x]
      · cases sch with
        | nil => exact absurd rfl n2
        | cons c t => simp; intro x; exact n1 (by simp [x])
    have hj' := join_pathOf (h ++ '/' :: (sch ++ '/' :: '/' :: a)) rest (by simp) (by
      intro x
      have e : h ++ '/' :: (sch ++ '/' :: '/' :: a) = (h ++ '/' :: (sch ++ ['/', '/'])) ++ a := by simp
      rw [e, List.getLast?_append] at x
      cases hg : a.getLast? with
      | none => exact ha0 (List.getLast?_eq_none_iff.1 hg)
      | some c =>
        rw [hg] at x
        simp at x
        exact ha (x ▸ List.mem_of_getLast? hg)) hr
    rw [← hs] at hj' ⊢
    exact hj'

/-! ## Collection metadata -/

theorem entryUrls_known (endpoint rel : String) (h : relDoc endpoint = some rel) (ls : List Link) :
    entryUrls endpoint ls = some ((ls.filter fun k => k.rel = rel).map Link.href) := by
  induction ls with
  | nil => rfl
  | cons a r ih =>
    unfold entryUrls
    rw [h]
    dsimp only
    rw [ih, Option.map_some, List.filter_cons]
    by_cases ha : a.rel = rel <;> simp [ha]

/-- **C123** the urls of the collections are the addresses of all links of the endpoint, in order, those of all entries; without a
feed there are none -/
theorem metadata_spec (endpoint rel : String) (h : relDoc endpoint = some rel) (es : List Entry) :
    metadataJson endpoint (some es) = some ((es.flatMap Entry.links).filterMap fun k => if k.rel = rel then some k.href else none) ∧
      metadataJson endpoint none = some [] := by
  refine ⟨?_, rfl⟩
  unfold metadataJson
  dsimp only
  induction es with
  | nil => rfl
  | cons e r ih =>
    unfold feedUrls
    rw [entryUrls_known endpoint rel h]
    dsimp only
    rw [ih, Option.map_some, List.flatMap_cons, List.filterMap_append]
    congr 2
    induction e.links with
    | nil => rfl
    | cons a t iht => by_cases ha : a.rel = rel <;> simp [ha, iht]

/-- **C123** the relations of the links of the three endpoints -/
theorem endpoint_table : ["documentation", "data", "s3"].map relDoc =
    [some "http://esipfed.org/ns/fedsearch/1.1/documentation#", some "http://esipfed.org/ns/fedsearch/1.1/data#",
      some "http://esipfed.org/ns/fedsearch/1.1/s3#"] := by decide +kernel

/-- **C123** there are three endpoints; another one raises as soon as there is a link, and passes without -/
theorem metadata_endpoint (endpoint : String) (es : List Entry) :
    (metadataJson endpoint (some es) = none ↔
      endpoint ∉ ["documentation", "data", "s3"] ∧ ∃ e ∈ es, e.links ≠ []) := by
  have hr : relDoc endpoint = none ↔ endpoint ∉ ["documentation", "data", "s3"] := by
    unfold relDoc relOf
    by_cases h1 : endpoint = "documentation" <;> by_cases h2 : endpoint = "data" <;> by_cases h3 : endpoint = "s3" <;>
      simp_all
  cases h : relDoc endpoint with
  | some rel =>
    rw [(metadata_spec endpoint rel h es).1]
    have : ¬ endpoint ∉ ["documentation", "data", "s3"] := fun hn => by rw [hr.2 hn] at h; cases h
    simp only [reduceCtorEq, false_iff, not_and]
    exact fun hn => absurd hn this
  | none =>
    rw [← hr, h]
    simp only [true_and]
    unfold metadataJson
    dsimp only
    induction es with
    | nil => simp [feedUrls]
    | cons e r ih =>
      unfold feedUrls
      cases hl : e.links with
      | nil =>
        simp only [entryUrls, Option.map_eq_none_iff, ih, List.mem_cons, exists_eq_or_imp, hl]
        simp
      | cons a t =>
        simp only [entryUrls, h, List.mem_cons, exists_eq_or_imp, hl]
        simp

/-- **C123** with a pattern, those urls in which it is found, in the same order -/
theorem metadata_pattern (endpoint rel : String) (h : relDoc endpoint = some rel) (p : String → Bool) (es : List Entry) :
    metadataUrls endpoint (some p) (some es) = (metadataUrls endpoint none (some es)).map (List.filter p) := by
  unfold metadataUrls
  rw [(metadata_spec endpoint rel h es).1]
  rfl

/-! ## The hypotheses can be met -/

/-- a server that knows one user -/
def exampleServer : Server where
  netrc := .entry "u".toList "p".toList
  check := fun c => if c = some ⟨some "u".toList, some "p".toList⟩ then .gives () else .http
  list := fun c _ => if c = some ⟨some "u".toList, some "p".toList⟩ then .gives ⟨["b".toList, "a".toList], ["20200101120000".toList, [' ']]⟩
    else .http
  file := fun c _ => if c = some ⟨some "u".toList, some "p".toList⟩ then .gives [1, 2] else .http
  hash := fun b => 'h' :: b.map fun x => Char.ofNat x.toNat
  dateutil := fun _ => none

example : (signIn exampleServer ⟨true, none, none⟩ ⟨none, fun _ => none⟩).2 = .ok () ∧
    join ["https://x".toList, "y".toList] = some "https://x/y".toList := by
  refine ⟨?_, by decide +kernel⟩
  have : credentials exampleServer none none = .ok ⟨some "u".toList, some "p".toList⟩ := rfl
  have h : exampleServer.check (some ⟨some "u".toList, some "p".toList⟩) = .gives () := by
    dsimp only [exampleServer]
    rw [if_pos rfl]
  unfold signIn
  simp only [if_true, this, checkCredentials, h]

example : installs exampleServer ⟨true, some "v".toList, none⟩ = some ⟨some "v".toList, none⟩ ∧
    exampleServer.check (some ⟨some "v".toList, none⟩) = .http := by
  refine ⟨rfl, ?_⟩
  simp only [exampleServer]
  rw [if_neg (by decide +kernel)]

example : metadataJson "documentation" (some [⟨"t", "d", [⟨"x", "a"⟩, ⟨"http://esipfed.org/ns/fedsearch/1.1/documentation#", "b"⟩]⟩]) =
    some ["b"] := by decide +kernel

end Verif.Drive
