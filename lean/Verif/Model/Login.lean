import Verif.Model.Py
/-!
Model of the login to NASA Earthdata and of what is sent to which server, `/repo/pyTMD/utilities.py`
723-747, 944-1274, 1306-1339 and 1414-1440 (`check_connection`, `attempt_login`, `build_opener`, `get_token`,
`list_tokens`, `revoke_token`, `check_credentials` and the beginnings of `cddis_list` and `from_cddis`).

Of an opener of `urllib` its credentials, the host of its password manager and whether it has a header
are kept.  Redirections are followed by every opener of `urllib`, also with `redirect=False`.  A password
manager compares the authority of an address only; here this is a host.  Cookies, certificates and the
answers of the servers, other than a redirection or a request for a password, are left out.
-/
namespace Verif.Login
open Verif

abbrev Cred := String × String

/-! ### `attempt_login` -/

/-- The arguments `username`, `password` and `retries` (`none`: not given; `some none`: given as `None`), the two
environment variables, and what `netrc` has for the host (`none`: no file, no entry or any other
exception; a password may be missing). -/
structure Given where
  username : Option (Option String)
  password : Option (Option String)
  retries : Option Nat
  envUser : Option String
  envPassword : Option String
  netrc : Option (String × Option String)

/-- `not x` for a text or `None`. -/
def empty : Option String → Bool
  | none => true
  | some s => s = ""

/-- utilities.py 985-996: the credentials of the file `.netrc`, else those of the arguments and the environment. -/
def known (g : Given) : Option String × Option String :=
  match g.netrc with
  | some c => (some c.1, c.2)
  | none => (g.username.getD g.envUser, g.password.getD g.envPassword)

/-- utilities.py 999-1003: what is asked at the start; the flag says whether `prompt` is set. -/
def start (g : Given) (askUser askPassword : Nat → String) : Cred × Bool :=
  let k := known g
  ((if empty k.1 then askUser 0 else k.1.getD "", if empty k.2 then askPassword 0 else k.2.getD ""), empty k.2)

/-- utilities.py 1005-1025: the loop, from attempt `k` on with `n` left.  The result is the list of the
credentials with which an opener was built and installed, and the outcome: the credentials of the
opener that is returned, `UnboundLocalError` if `prompt` is not set, or `RuntimeError` (`exception`). -/
def loop (accept : Nat → Cred → Bool) (askUser askPassword : Nat → String) (prompt : Bool) :
    Nat → Nat → Cred → List Cred × Except PyErr Cred
  | 0, _, _ => ([], .error .exception)
  | n + 1, k, c =>
    if accept k c then ([c], .ok c)
    else if !prompt then ([c], .error .unbound)
    else
      let r := loop accept askUser askPassword prompt n (k + 1) (askUser (k + 1), askPassword (k + 1))
      (c :: r.1, r.2)

/-- utilities.py 944-1025, `attempt_login`. -/
def attemptLogin (g : Given) (accept : Nat → Cred → Bool) (askUser askPassword : Nat → String) :
    List Cred × Except PyErr Cred :=
  let s := start g askUser askPassword
  loop accept askUser askPassword s.2 (g.retries.getD 5) 0 s.1

/-- `get_token`, `list_tokens` and `revoke_token` (1131-1138, 1184-1191, 1235-1242) always pass their arguments
`username` and `password`, which are `None` by default. -/
def tokenLogin (username password : Option String) (envUser envPassword : Option String)
    (netrc : Option (String × Option String)) : Given :=
  ⟨some username, some password, none, envUser, envPassword, netrc⟩

/-! ### What is sent -/

/-- An opener made by `build_opener`, 1028-1097. -/
structure Opener where
  cred : Cred
  manager : Option String
  header : Bool

/-- One address of a chain of redirections: its host and whether the server asks for a password. -/
structure Hop where
  host : String
  asks : Bool

/-- What is sent to one address: the header of the request, which goes along with redirections, else the
header of the opener, and on request what the password manager has for the host. -/
def sentHop (o : Option Opener) (own : Option Cred) (h : Hop) : List (String × Cred) :=
  let fromOpener :=
    match o, own with
    | some o, none => if o.header then [(h.host, o.cred)] else []
    | _, _ => []
  let onRequest :=
    match o with
    | some o => if h.asks && o.manager == some h.host then [(h.host, o.cred)] else []
    | none => []
  (own.toList.map fun c => (h.host, c)) ++ fromOpener ++ onRequest

/-- `urlopen` with the opener that is installed. -/
def sent (o : Option Opener) (own : Option Cred) (l : List Hop) : List (String × Cred) := l.flatMap (sentHop o own)

/-- Calls: functions with a context for encrypted connections (`check_connection`, `from_http`, `from_json`,
`iers_list`, `uhslc_list` and all that use them), `build_opener`, any other `urlopen` of the process, `cddis_list` or
`from_cddis` with and without `build`, and the functions for tokens (the last attempt of the login).  Each
has the addresses of its requests. -/
inductive Call where
  | fetch (request : List Hop)
  | build (cred : Cred) (passwordManager header : Bool) (urs : String)
  | open (request : List Hop)
  | cddis (build : Bool) (cred : Cred) (check request : List Hop)
  | token (cred : Cred) (check request : List Hop)

/-- `urs.earthdata.nasa.gov`, the default of `build_opener`. -/
def urs : String := "urs.earthdata.nasa.gov"

/-- The opener that is installed after a call, and what the call sends.  With a context `urlopen` makes an
opener of its own for the request. -/
def call (o : Option Opener) : Call → Option Opener × List (String × Cred)
  | .fetch l => (o, sent none none l)
  | .build c m h u => (some ⟨c, if m then some u else none, h⟩, [])
  | .open l => (o, sent o none l)
  | .cddis b c check l =>
    let o' := if b then some ⟨c, some urs, false⟩ else o
    (o', (if b then sent o' none check else []) ++ sent o' (some c) l)
  | .token c check l =>
    let o' : Option Opener := some ⟨c, none, true⟩
    (o', sent o' none check ++ sent o' none l)

/-- A history of calls. -/
def history : Option Opener → List Call → Option Opener × List (String × Cred)
  | o, [] => (o, [])
  | o, x :: l =>
    let r := call o x
    let s := history r.1 l
    (s.1, r.2 ++ s.2)

end Verif.Login
