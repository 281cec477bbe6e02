import Verif.Login.Props

/-!
# C101: empty names and passwords
-/
namespace Verif.Login

/-- the same keywords with empty texts taken for missing ones -/
theorem missing_iff (x : Option Str) : missing x = true ↔ x = none ∨ x = some "" := by
  cases x <;> simp [missing]

/-- **An empty username or password counts as unknown**: the login goes as if it had not been given. -/
theorem login_empty (o : Outside) (ku kp : Kw) (retries : Nat) (u p : Option Str) (h : Known o ku kp u p)
    (o' : Outside) (hn : o'.netrc = none) (ha : o'.answer = o.answer) (hc : o'.accepts = o.accepts) :
    attemptLogin o ku kp retries =
      attemptLogin o' (some (if u = some "" then none else u)) (some (if p = some "" then none else p)) retries := by
  have hk := known_stored o' _ _ _ _ (Known.keywords (o := o') (if u = some "" then none else u)
    (if p = some "" then none else p) hn rfl rfl)
  have hm : ∀ x : Option Str, missing (if x = some "" then none else x) = missing x := by
    intro x
    by_cases hx : x = some ""
    · rw [if_pos hx, hx]; rfl
    · rw [if_neg hx]
  have hg : ∀ x : Option Str, missing x = false → (if x = some "" then none else x) = x := by
    intro x hx
    rw [if_neg]
    intro he
    rw [he] at hx
    exact absurd hx (by decide)
  have ht : ∀ (q : Option Prompt) (n k a : Nat) (c : Cred), tries o' q n k a c = tries o q n k a c := by
    intro q n
    induction n with
    | zero => intro k a c; rfl
    | succ n ih =>
      intro k a c
      simp only [tries, ha, hc, ih]
  unfold attemptLogin
  rw [known_stored o ku kp _ _ h, hk]
  simp only [hm, ha, ht]
  cases hu : missing u <;> cases hp : missing p <;> simp [hu, hp, hg]

end Verif.Login
