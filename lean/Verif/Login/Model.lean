/-!
# Model of the login to NASA Earthdata

`attempt_login`, `build_opener`, `get_token`, `list_tokens` and `revoke_token` of `utilities.py`. What is outside of the program
(the `.netrc` file, the environment, the person at the keyboard, the server) is a parameter. The SSL context, the cookies and
the handlers of an opener are not modelled: an opener is the credentials it was built with.
-/
namespace Verif.Login

abbrev Str := String

/-- Username and password. -/
abbrev Cred := Str × Str

/-- What is outside of the program. -/
structure Outside where
  /-- username and password that `netrc.netrc(nc).authenticators(urs)` finds; `none` if any of the calls raises or there is no
  entry (the unpacking of `None` raises) (utilities.py:910-912) -/
  netrc : Option Cred
  /-- `os.environ.get('EARTHDATA_USERNAME')` -/
  envUser : Option Str
  /-- `os.environ.get('EARTHDATA_PASSWORD')` -/
  envPass : Option Str
  /-- the `k`-th answer at the keyboard -/
  answer : Nat → Str
  /-- does the server accept the credentials of the installed opener at the `k`-th check -/
  accepts : Nat → Cred → Bool

/-- A keyword argument: not given, or given (possibly as `None`). -/
abbrev Kw := Option (Option Str)

/-- `kwargs.setdefault(key, default)` followed by `kwargs[key]` (utilities.py:901-902): the default is used only if the keyword
is not given at all. -/
def kwValue (k : Kw) (dflt : Option Str) : Option Str :=
  match k with
  | none => dflt
  | some v => v

/-- What is shown at the keyboard. -/
inductive Prompt where
  | user
  | pass (user : Str)
deriving DecidableEq

/-- How the login ends. -/
inductive Outcome where
  /-- the opener is returned -/
  | opener (c : Cred)
  /-- `RuntimeError('End of Retries: Check NASA Earthdata credentials')` -/
  | endOfRetries
  /-- `UnboundLocalError`: the variable `prompt` has no value -/
  | unbound
deriving DecidableEq

/-- Everything that happened. -/
structure Log where
  /-- the prompts shown, in order -/
  prompts : List Prompt
  /-- the credentials checked with the server, in order -/
  checked : List Cred
  /-- the credentials of the opener used by all later requests (`install_opener`, utilities.py:1012) -/
  installed : Option Cred
  out : Outcome
deriving DecidableEq

/-- `not x` of a string or `None`. -/
def missing (x : Option Str) : Bool :=
  match x with
  | none => true
  | some s => s = ""

/-- The loop over the retries (utilities.py:924-944): `n` retries left, the attempt number, the answers given so far, the
credentials, and the value of the variable `prompt` (none if it was never assigned). -/
def tries (o : Outside) (prompt : Option Prompt) : Nat → Nat → Nat → Cred → Log
  | 0, _, _, _ => ⟨[], [], none, .endOfRetries⟩
  | n + 1, k, a, c =>
    if o.accepts k c then ⟨[], [c], some c, .opener c⟩
    else
      match prompt with
      | none => ⟨[.user], [c], some c, .unbound⟩
      | some p =>
        let r := tries o prompt n (k + 1) (a + 2) (o.answer a, o.answer (a + 1))
        ⟨.user :: p :: r.prompts, c :: r.checked, r.installed <|> some c, r.out⟩

/-- Username and password before any question (utilities.py:905-914). -/
def stored (o : Outside) (ku kp : Kw) : Option Str × Option Str :=
  match o.netrc with
  | some (u, p) => (some u, some p)
  | none => (kwValue ku o.envUser, kwValue kp o.envPass)

/-- `attempt_login` (utilities.py:900-944). -/
def attemptLogin (o : Outside) (ku kp : Kw) (retries : Nat) : Log :=
  let s := stored o ku kp
  let askU := missing s.1
  let u := if askU then o.answer 0 else s.1.getD ""
  let a := if askU then 1 else 0
  let askP := missing s.2
  let p := if askP then o.answer a else s.2.getD ""
  let prompt := if askP then some (Prompt.pass u) else none
  let r := tries o prompt retries 0 (if askP then a + 1 else a) (u, p)
  { r with prompts := (if askU then [.user] else []) ++ (if askP then [.pass u] else []) ++ r.prompts }

/-- A request to the token interface: the address and the credentials it is sent with (`none`: no opener was installed). -/
structure Request where
  url : Str
  post : Bool
  cred : Option Cred
deriving DecidableEq

/-- `get_token`, `list_tokens`, `revoke_token` (utilities.py:1053-1074, 1110-1131, 1165-1190): with `build` the login comes
first - with the arguments `username` and `password` as given, `None` by default, and the default of five retries - then one
request. `before` is the opener installed before the call. The answer of the server is not modelled. -/
def tokenCall (o : Outside) (user pass : Option Str) (build : Bool) (before : Option Cred) (url : Str) (post : Bool) :
    Option Log × Option Request :=
  if build then
    let r := attemptLogin o (some user) (some pass) 5
    match r.out with
    | .opener _ => (some r, some ⟨url, post, r.installed⟩)
    | _ => (some r, none)
  else (none, some ⟨url, post, before⟩)

/-- The address of `revoke_token` (utilities.py:1176). -/
def revokeUrl (host token : Str) : Str := host ++ "?token=" ++ token

end Verif.Login
