import Verif.Login.Model

/-!
# C101: the login to NASA Earthdata

`Outside` (files, environment, keyboard, server) ranges over all behaviours; nothing is assumed about the server, which may
change its mind between two attempts.
-/
namespace Verif.Login

/-! ## Lemmas -/

theorem tries_opener (o : Outside) (p : Option Prompt) (c : Cred) : ∀ (n k a : Nat) (d : Cred),
    (tries o p n k a d).out = .opener c →
      ∃ j, j < n ∧ (tries o p n k a d).checked.length = j + 1 ∧ (tries o p n k a d).checked[j]? = some c ∧
        o.accepts (k + j) c = true ∧ (tries o p n k a d).installed = some c ∧
        ∀ i, i < j → ∃ e, (tries o p n k a d).checked[i]? = some e ∧ o.accepts (k + i) e = false := by
  intro n
  induction n with
  | zero => intro k a d h; simp [tries] at h
  | succ n ih =>
    intro k a d h
    unfold tries at h ⊢
    by_cases hacc : o.accepts k d = true
    · rw [if_pos hacc] at h ⊢
      simp only [Outcome.opener.injEq] at h
      subst h
      exact ⟨0, by omega, rfl, rfl, by simpa using hacc, rfl, by omega⟩
    · rw [if_neg hacc] at h ⊢
      cases p with
      | none => simp at h
      | some q =>
        simp only at h ⊢
        obtain ⟨j, h1, h2, h3, h4, h5, h6⟩ := ih (k + 1) (a + 2) _ h
        refine ⟨j + 1, by omega, by simp [h2], by simpa using h3, by rw [show k + (j + 1) = k + 1 + j by omega]; exact h4,
          by simp [h5], ?_⟩
        intro i hi
        cases i with
        | zero => exact ⟨d, rfl, by simpa using hacc⟩
        | succ i =>
          obtain ⟨e, e1, e2⟩ := h6 i (by omega)
          exact ⟨e, by simpa using e1, by rw [show k + (i + 1) = k + 1 + i by omega]; exact e2⟩

theorem tries_failed (o : Outside) (p : Option Prompt) : ∀ (n k a : Nat) (d : Cred),
    (∀ c, (tries o p n k a d).out ≠ .opener c) →
      (∀ i e, (tries o p n k a d).checked[i]? = some e → o.accepts (k + i) e = false) ∧
      (tries o p n k a d).installed = (tries o p n k a d).checked.getLast? := by
  intro n
  induction n with
  | zero => intro k a d _; simp [tries]
  | succ n ih =>
    intro k a d h
    unfold tries at h ⊢
    by_cases hacc : o.accepts k d = true
    · rw [if_pos hacc] at h
      exact absurd rfl (h d)
    · rw [if_neg hacc] at h ⊢
      cases p with
      | none =>
        refine ⟨?_, rfl⟩
        intro i e hi
        cases i with
        | zero => simp at hi; subst hi; simpa using hacc
        | succ i => simp at hi
      | some q =>
        simp only at h ⊢
        obtain ⟨h1, h2⟩ := ih (k + 1) (a + 2) _ h
        constructor
        · intro i e hi
          cases i with
          | zero => simp at hi; subst hi; simpa using hacc
          | succ i =>
            rw [show k + (i + 1) = k + 1 + i by omega]
            exact h1 i e (by simpa using hi)
        · rw [h2]
          generalize (tries o (some q) n (k + 1) (a + 2) (o.answer a, o.answer (a + 1))).checked = l
          cases l with
          | nil => rfl
          | cons x l =>
            rw [List.getLast?_cons_cons]
            cases hx : (x :: l).getLast? with
            | none => simp at hx
            | some v => rfl

/-- the credentials tried from the keyboard -/
def typed (o : Outside) (a j : Nat) : Cred := (o.answer (a + 2 * j), o.answer (a + 2 * j + 1))

theorem tries_end (o : Outside) (q : Prompt) : ∀ (n k a : Nat) (d : Cred), o.accepts k d = false →
    (∀ j, j < n → o.accepts (k + 1 + j) (typed o a j) = false) →
      tries o (some q) (n + 1) k a d =
        ⟨(List.replicate (n + 1) [Prompt.user, q]).flatten, d :: (List.range n).map (typed o a),
          (d :: (List.range n).map (typed o a)).getLast?, .endOfRetries⟩ := by
  intro n
  induction n with
  | zero =>
    intro k a d h _
    simp [tries, h]
  | succ n ih =>
    intro k a d h hall
    rw [tries, h]
    have e0 : typed o a 0 = (o.answer a, o.answer (a + 1)) := rfl
    have hs : ∀ j, typed o (a + 2) j = typed o a (j + 1) := by
      intro j
      unfold typed
      rw [show a + 2 + 2 * j = a + 2 * (j + 1) by omega]
    have h1 := ih (k + 1) (a + 2) (o.answer a, o.answer (a + 1))
      (by have := hall 0 (by omega); rw [e0] at this; simpa using this)
      (by
        intro j hj
        have := hall (j + 1) (by omega)
        rw [hs, show k + 1 + 1 + j = k + 1 + (j + 1) by omega]
        exact this)
    simp only [Bool.false_eq_true, if_false]
    rw [h1]
    have hl : (o.answer a, o.answer (a + 1)) :: (List.range n).map (typed o (a + 2)) =
        (List.range (n + 1)).map (typed o a) := by
      rw [List.range_succ_eq_map, List.map_cons, List.map_map, e0]
      congr 1
      apply List.map_congr_left
      intro j _
      exact hs j
    rw [hl]
    have hne : (List.range (n + 1)).map (typed o a) ≠ [] := by simp
    obtain ⟨x, l, hx⟩ := List.exists_cons_of_ne_nil hne
    rw [hx, List.getLast?_cons_cons]
    congr 1

theorem tries_accept (o : Outside) (q : Prompt) : ∀ (j n k a : Nat) (d : Cred), j < n → o.accepts k d = false →
    (∀ i, i < j → o.accepts (k + 1 + i) (typed o a i) = false) → o.accepts (k + 1 + j) (typed o a j) = true →
      (tries o (some q) (n + 1) k a d).out = .opener (typed o a j) ∧
      (tries o (some q) (n + 1) k a d).prompts = (List.replicate (j + 1) [Prompt.user, q]).flatten := by
  intro j
  induction j with
  | zero =>
    intro n k a d hn h _ hacc
    obtain ⟨n, rfl⟩ : ∃ n', n = n' + 1 := ⟨n - 1, by omega⟩
    have e0 : typed o a 0 = (o.answer a, o.answer (a + 1)) := rfl
    rw [e0] at hacc ⊢
    simp at hacc
    rw [tries, h]
    simp only [Bool.false_eq_true, if_false]
    rw [tries, if_pos hacc]
    exact ⟨rfl, rfl⟩
  | succ j ih =>
    intro n k a d hn h hrej hacc
    obtain ⟨n, rfl⟩ : ∃ n', n = n' + 1 := ⟨n - 1, by omega⟩
    have e0 : typed o a 0 = (o.answer a, o.answer (a + 1)) := rfl
    have hs : ∀ j, typed o (a + 2) j = typed o a (j + 1) := by
      intro j
      unfold typed
      rw [show a + 2 + 2 * j = a + 2 * (j + 1) by omega]
    have h1 := ih n (k + 1) (a + 2) (o.answer a, o.answer (a + 1)) (by omega)
      (by have := hrej 0 (by omega); rw [e0] at this; simpa using this)
      (by
        intro i hi
        rw [hs, show k + 1 + 1 + i = k + 1 + (i + 1) by omega]
        exact hrej (i + 1) (by omega))
      (by rw [hs, show k + 1 + 1 + j = k + 1 + (j + 1) by omega]; exact hacc)
    rw [tries, h]
    simp only [Bool.false_eq_true, if_false]
    rw [h1.1, h1.2, hs]
    exact ⟨rfl, rfl⟩

/-! ## Whatever happens -/

/-- **An opener that is returned is accepted**: its credentials are the last ones checked, the server accepted them at that
attempt and rejected all before, there were at most `retries` attempts, and later requests use this opener. -/
theorem login_opener (o : Outside) (ku kp : Kw) (retries : Nat) (c : Cred)
    (h : (attemptLogin o ku kp retries).out = .opener c) :
    ∃ j, j < retries ∧ (attemptLogin o ku kp retries).checked.length = j + 1 ∧
      (attemptLogin o ku kp retries).checked[j]? = some c ∧ o.accepts j c = true ∧
      (attemptLogin o ku kp retries).installed = some c ∧
      ∀ i, i < j → ∃ e, (attemptLogin o ku kp retries).checked[i]? = some e ∧ o.accepts i e = false := by
  unfold attemptLogin at h ⊢
  obtain ⟨j, h1, h2, h3, h4, h5, h6⟩ := tries_opener o _ c _ _ _ _ h
  exact ⟨j, h1, h2, h3, by simpa using h4, h5, fun i hi => by simpa using h6 i hi⟩

/-- **A login that fails leaves the rejected opener installed**: all the credentials checked were rejected, and later requests
use the last of them. -/
theorem login_failed (o : Outside) (ku kp : Kw) (retries : Nat)
    (h : ∀ c, (attemptLogin o ku kp retries).out ≠ .opener c) :
    (∀ i e, (attemptLogin o ku kp retries).checked[i]? = some e → o.accepts i e = false) ∧
    (attemptLogin o ku kp retries).installed = (attemptLogin o ku kp retries).checked.getLast? := by
  unfold attemptLogin at h ⊢
  obtain ⟨h1, h2⟩ := tries_failed o _ _ _ _ _ h
  exact ⟨fun i e hi => by simpa using h1 i e hi, h2⟩

/-! ## Where the credentials come from -/

/-- the username and password that are known without asking: those of the `.netrc` file if it has an entry, else the keywords,
else - only for a keyword that is not given - the environment -/
inductive Known (o : Outside) (ku kp : Kw) : Option Str → Option Str → Prop
  | netrc (u p : Str) : o.netrc = some (u, p) → Known o ku kp (some u) (some p)
  | keywords (u p : Option Str) : o.netrc = none → ku = some u → kp = some p → Known o ku kp u p
  | username (u : Option Str) : o.netrc = none → ku = some u → kp = none → Known o ku kp u o.envPass
  | password (p : Option Str) : o.netrc = none → ku = none → kp = some p → Known o ku kp o.envUser p
  | environment : o.netrc = none → ku = none → kp = none → Known o ku kp o.envUser o.envPass

theorem known_stored (o : Outside) (ku kp : Kw) (u p : Option Str) (h : Known o ku kp u p) : stored o ku kp = (u, p) := by
  unfold stored
  cases h with
  | netrc u p h => rw [h]
  | keywords u p h h1 h2 => rw [h, h1, h2]; rfl
  | username u h h1 h2 => rw [h, h1, h2]; rfl
  | password p h h1 h2 => rw [h, h1, h2]; rfl
  | environment h h1 h2 => rw [h, h1, h2]; rfl

/-- there always is exactly one such pair -/
theorem known_exists (o : Outside) (ku kp : Kw) : ∃ u p, Known o ku kp u p := by
  cases hn : o.netrc with
  | some c => exact ⟨_, _, .netrc c.1 c.2 hn⟩
  | none =>
    cases hu : ku with
    | none =>
      cases hp : kp with
      | none => exact ⟨_, _, .environment hn rfl rfl⟩
      | some p => exact ⟨_, _, .password p hn rfl rfl⟩
    | some u =>
      cases hp : kp with
      | none => exact ⟨_, _, .username u hn rfl rfl⟩
      | some p => exact ⟨_, _, .keywords u p hn rfl rfl⟩

/-- **Known credentials are used without a question**: nothing is asked if the server accepts them. -/
theorem login_known (o : Outside) (ku kp : Kw) (retries : Nat) (u p : Str) (h : Known o ku kp (some u) (some p))
    (hu : u ≠ "") (hp : p ≠ "") (hr : 0 < retries) (hacc : o.accepts 0 (u, p) = true) :
    attemptLogin o ku kp retries = ⟨[], [(u, p)], some (u, p), .opener (u, p)⟩ := by
  obtain ⟨n, rfl⟩ : ∃ n, retries = n + 1 := ⟨retries - 1, by omega⟩
  unfold attemptLogin
  simp only [known_stored o ku kp _ _ h, missing, hu, hp, decide_false, Bool.false_eq_true, if_false, Option.getD_some]
  rw [tries, if_pos hacc]
  rfl

/-- **Deviation: a known password that is rejected cannot be corrected.** The username is asked for again, then the program
ends with an `UnboundLocalError`, whatever `retries` is: the text of the prompt exists only if the password was typed. -/
theorem login_known_rejected (o : Outside) (ku kp : Kw) (retries : Nat) (u p : Str) (h : Known o ku kp (some u) (some p))
    (hu : u ≠ "") (hp : p ≠ "") (hr : 0 < retries) (hrej : o.accepts 0 (u, p) = false) :
    attemptLogin o ku kp retries = ⟨[.user], [(u, p)], some (u, p), .unbound⟩ := by
  obtain ⟨n, rfl⟩ : ∃ n, retries = n + 1 := ⟨retries - 1, by omega⟩
  unfold attemptLogin
  simp only [known_stored o ku kp _ _ h, missing, hu, hp, decide_false, Bool.false_eq_true, if_false, Option.getD_some]
  rw [tries, hrej]
  rfl

/-- **Only the password is unknown**: only the password is asked for. -/
theorem login_password (o : Outside) (ku kp : Kw) (retries : Nat) (u : Str) (h : Known o ku kp (some u) none) (hu : u ≠ "")
    (hr : 0 < retries) (hacc : o.accepts 0 (u, o.answer 0) = true) :
    attemptLogin o ku kp retries = ⟨[.pass u], [(u, o.answer 0)], some (u, o.answer 0), .opener (u, o.answer 0)⟩ := by
  obtain ⟨n, rfl⟩ : ∃ n, retries = n + 1 := ⟨retries - 1, by omega⟩
  unfold attemptLogin
  simp only [known_stored o ku kp _ _ h, missing, hu, decide_false, Bool.false_eq_true, if_false, if_true, Option.getD_some]
  rw [tries, if_pos hacc]
  rfl

/-- **Only the username is unknown**: only the username is asked for. -/
theorem login_username (o : Outside) (ku kp : Kw) (retries : Nat) (p : Str) (h : Known o ku kp none (some p)) (hp : p ≠ "")
    (hr : 0 < retries) (hacc : o.accepts 0 (o.answer 0, p) = true) :
    attemptLogin o ku kp retries = ⟨[.user], [(o.answer 0, p)], some (o.answer 0, p), .opener (o.answer 0, p)⟩ := by
  obtain ⟨n, rfl⟩ : ∃ n, retries = n + 1 := ⟨retries - 1, by omega⟩
  unfold attemptLogin
  simp only [known_stored o ku kp _ _ h, missing, hp, decide_false, Bool.false_eq_true, if_false, if_true, Option.getD_some]
  rw [tries, if_pos hacc]
  rfl

/-- **Nothing known**: username and password are asked for, in this order, before the first attempt; then new ones after every
rejection until a pair is accepted. All the password prompts show the first username. -/
theorem login_asked (o : Outside) (ku kp : Kw) (retries j : Nat) (h : Known o ku kp none none) (hj : j < retries)
    (hrej : ∀ i, i < j → o.accepts i (typed o 0 i) = false) (hacc : o.accepts j (typed o 0 j) = true) :
    (attemptLogin o ku kp retries).out = .opener (typed o 0 j) ∧
    (attemptLogin o ku kp retries).prompts = (List.replicate (j + 1) [Prompt.user, .pass (o.answer 0)]).flatten := by
  obtain ⟨n, rfl⟩ : ∃ n, retries = n + 1 := ⟨retries - 1, by omega⟩
  unfold attemptLogin
  simp only [known_stored o ku kp _ _ h, missing, if_true]
  cases j with
  | zero =>
    have hacc' : o.accepts 0 (o.answer 0, o.answer 1) = true := hacc
    rw [tries, if_pos hacc']
    exact ⟨rfl, rfl⟩
  | succ j =>
    have hs : ∀ j, typed o 2 j = typed o 0 (j + 1) := by
      intro j
      unfold typed
      rw [show 2 + 2 * j = 0 + 2 * (j + 1) by omega]
    have := tries_accept o (.pass (o.answer 0)) j n 0 2 (o.answer 0, o.answer 1) (by omega) (hrej 0 (by omega))
      (by
        intro i hi
        rw [hs, show 0 + 1 + i = i + 1 by omega]
        exact hrej (i + 1) (by omega))
      (by rw [hs, show 0 + 1 + j = j + 1 by omega]; exact hacc)
    rw [hs] at this
    refine ⟨this.1, ?_⟩
    show [Prompt.user] ++ [Prompt.pass (o.answer 0)] ++ _ = _
    rw [this.2, List.replicate_succ (n := j + 1), List.flatten_cons]
    rfl

/-- **Deviation: the last answers are not used.** If the server rejects the first `retries` pairs typed, `retries + 1` pairs have
been asked for, but only `retries` were checked: the last one is thrown away with the exception. -/
theorem login_end (o : Outside) (ku kp : Kw) (retries : Nat) (h : Known o ku kp none none) (hr : 0 < retries)
    (hrej : ∀ i, i < retries → o.accepts i (typed o 0 i) = false) :
    attemptLogin o ku kp retries =
      ⟨(List.replicate (retries + 1) [Prompt.user, .pass (o.answer 0)]).flatten, (List.range retries).map (typed o 0),
        some (typed o 0 (retries - 1)), .endOfRetries⟩ := by
  obtain ⟨n, rfl⟩ : ∃ n, retries = n + 1 := ⟨retries - 1, by omega⟩
  have hs : ∀ j, typed o 2 j = typed o 0 (j + 1) := by
    intro j
    unfold typed
    rw [show 2 + 2 * j = 0 + 2 * (j + 1) by omega]
  have e := tries_end o (.pass (o.answer 0)) n 0 2 (o.answer 0, o.answer 1) (hrej 0 (by omega))
    (by
      intro j hj
      rw [hs, show 0 + 1 + j = j + 1 by omega]
      exact hrej (j + 1) (by omega))
  have hl : (o.answer 0, o.answer 1) :: (List.range n).map (typed o 2) = (List.range (n + 1)).map (typed o 0) := by
    rw [List.range_succ_eq_map, List.map_cons, List.map_map]
    congr 1
    apply List.map_congr_left
    intro j _
    exact hs j
  have hlast : ((List.range (n + 1)).map (typed o 0)).getLast? = some (typed o 0 n) := by
    rw [List.range_succ, List.map_append]
    simp
  unfold attemptLogin
  simp only [known_stored o ku kp _ _ h, missing, if_true]
  rw [e, hl, hlast, List.replicate_succ (n := n + 1), List.flatten_cons]
  rfl

/-! ## Tokens -/

/-- **A request for tokens is sent only after an accepted login** (if `build` is set), with the accepted credentials. -/
theorem token_request (o : Outside) (user pass : Option Str) (before : Option Cred) (url : Str) (post : Bool) (q : Request)
    (h : (tokenCall o user pass true before url post).2 = some q) :
    ∃ c j, q = ⟨url, post, some c⟩ ∧ o.accepts j c = true := by
  unfold tokenCall at h
  simp only [if_true] at h
  cases ho : (attemptLogin o (some user) (some pass) 5).out with
  | opener c =>
    obtain ⟨j, _, _, _, h4, h5, _⟩ := login_opener o _ _ _ c ho
    rw [ho] at h
    simp only [Option.some.injEq] at h
    exact ⟨c, j, by rw [← h, h5], h4⟩
  | endOfRetries => rw [ho] at h; simp at h
  | unbound => rw [ho] at h; simp at h

/-- **Without `build`** the request goes out with whatever opener is installed. -/
theorem token_no_build (o : Outside) (user pass : Option Str) (before : Option Cred) (url : Str) (post : Bool) :
    tokenCall o user pass false before url post = (none, some ⟨url, post, before⟩) := rfl

/-- **Deviation: the environment is ignored.** The token functions pass `username=None` and `password=None` on, which counts as
given: without a `.netrc` entry username and password are asked for, whatever the environment variables are. -/
theorem token_environment (o : Outside) (before : Option Cred) (url : Str) (post : Bool) (hn : o.netrc = none) :
    ∃ log, (tokenCall o none none true before url post).1 = some log ∧
      log.prompts.take 2 = [.user, .pass (o.answer 0)] ∧ log.checked.head? = some (o.answer 0, o.answer 1) := by
  have hk : Known o (some none) (some none) none none := .keywords none none hn rfl rfl
  unfold tokenCall
  simp only [if_true]
  refine ⟨attemptLogin o (some none) (some none) 5, ?_, ?_, ?_⟩
  · split <;> rfl
  · unfold attemptLogin
    simp only [known_stored o _ _ _ _ hk, missing, if_true]
    rfl
  · unfold attemptLogin
    simp only [known_stored o _ _ _ _ hk, missing, if_true]
    rw [tries]
    by_cases hacc : o.accepts 0 (o.answer 0, o.answer 1) = true
    · simp [hacc]
    · simp [hacc]

/-! ## Concrete cases -/

/-- credentials in the environment, and a person who types them, correctly at the second time -/
def ex : Outside :=
  { netrc := none, envUser := some "anna", envPass := some "secret",
    answer := fun k => ["anna", "secrte", "anna", "secret"].getD k "", accepts := fun _ c => c = ("anna", "secret") }

example : attemptLogin ex none none 5 = ⟨[], [("anna", "secret")], some ("anna", "secret"), .opener ("anna", "secret")⟩ := by
  decide
example : Known ex none none (some "anna") (some "secret") := .environment rfl rfl rfl
-- the keyword is given as `None`: two questions, twice
example : (attemptLogin ex (some none) (some none) 5).prompts = [.user, .pass "anna", .user, .pass "anna"] ∧
    (attemptLogin ex (some none) (some none) 5).out = .opener ("anna", "secret") := by decide
-- an outdated password in the environment
example : attemptLogin { ex with envPass := some "old" } none none 5 =
    ⟨[.user], [("anna", "old")], some ("anna", "old"), .unbound⟩ := by decide
-- one retry: the second, correct pair is asked for and not used
example : attemptLogin ex (some none) (some none) 1 =
    ⟨[.user, .pass "anna", .user, .pass "anna"], [("anna", "secrte")], some ("anna", "secrte"), .endOfRetries⟩ := by decide
example : (tokenCall ex none none true none "https://urs.earthdata.nasa.gov/api/users/token" true).2 =
    some ⟨"https://urs.earthdata.nasa.gov/api/users/token", true, some ("anna", "secret")⟩ := by decide
example : revokeUrl "h" "t" = "h?token=t" := by decide

end Verif.Login
