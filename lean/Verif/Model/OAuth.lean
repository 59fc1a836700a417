import Verif.Prelude.Dict
import Verif.Prelude.Base64
import Verif.Prelude.Utf8

/-!
# Model of the OAuth redirect flow
(`/repo/sigstore/_internal/oidc/oauth.py:104-285`, `/repo/sigstore/oidc.py:270-366`)

Two threads share the redirect server object: the main thread, in `Issuer.identity_token`, and the thread serving
requests (one at a time, `http.server.HTTPServer`).  A step of the machine is one access to shared state.
-/

namespace Sigstore.OAuth

/-- What `urllib.parse.parse_qs` returns: for every parameter its values. -/
abbrev Query := Dict Str (List Str)

/-- Library functions: `urllib.parse.urlsplit` (path and query) and `parse_qs`; SHA-256. -/
structure Libs where
  split : Str → Str × Str
  parseQs : Str → Query
  sha256 : Bytes → Bytes

/-- the parameters of an authorization request that depend on the session (`_OAuthSession._auth_params`,
`oauth.py:227-237`) -/
structure AuthParams where
  redirectUri : Str
  codeChallenge : Str
  state : Str
deriving DecidableEq, Repr

/-- what the server and its session keep fixed: `_state`, `code_verifier`, `base_uri` (`oauth.py:187-198, 253-257`) -/
structure Session where
  state : Str
  codeVerifier : Str
  baseUri : Str

/-- `base64.urlsafe_b64encode(b).rstrip(b"=")` -/
def urlsafeB64 (b : Bytes) : Str :=
  ((b64Encode b).map fun c => if c = '+' then '-' else if c = '/' then '_' else c).filter (· ≠ '=')

/-- `_OAuthSession.code_challenge` (`oauth.py:204-212`) -/
def Session.codeChallenge (libs : Libs) (s : Session) : Str := urlsafeB64 (libs.sha256 (utf8 s.codeVerifier))

/-- `_OAuthRedirectServer.redirect_uri` (`oauth.py:268-274`) -/
def Session.redirectUri (s : Session) (oob : Bool) : Str :=
  if oob then "urn:ietf:wg:oauth:2.0:oob".toList else s.baseUri ++ "/auth/callback".toList

/-- `_OAuthSession._auth_params` (`oauth.py:227-237`) -/
def Session.authParams (libs : Libs) (s : Session) (redirectUri : Str) : AuthParams :=
  ⟨redirectUri, s.codeChallenge libs, s.state⟩

/-- where the server thread is, in `do_GET` (`oauth.py:145-181`) and in `auth_endpoint` (`oauth.py:214-225`) -/
inductive ServerPc where
  | idle
  /-- about to read `redirect_uri` -/
  | reading
  /-- about to test `__poison` -/
  | testing (uri : Str)
  /-- about to set `__poison` and return the URL -/
  | setting (uri : Str)
deriving DecidableEq, Repr

/-- where the main thread is, in `identity_token` (`oidc.py:299-337`) -/
inductive MainPc where
  /-- waiting for the browser: only reads `auth_response` -/
  | waiting
  /-- about to enable the out-of-band flow -/
  | start
  | reading
  | testing (uri : Str)
  | setting (uri : Str)
  /-- the URL was printed; asking the user for the code -/
  | printed
  /-- `IdentityError("internal error: OAuth endpoint misuse")` (`oauth.py:220`), of the package `id` (`oauth.py:32`) -/
  | failed
deriving DecidableEq, Repr

/-- the shared state, the requests still to come, and (a ghost variable) the authorization URLs handed out -/
structure Machine where
  poison : Bool
  oob : Bool
  response : Option Query
  requests : List Str
  server : ServerPc
  main : MainPc
  issued : List AuthParams
deriving DecidableEq, Repr

/-- one step of the server thread -/
def serverStep (libs : Libs) (s : Session) (m : Machine) : Machine :=
  match m.server with
  | .idle =>
    match m.requests with
    | [] => m
    | target :: rest =>
      if m.response ≠ none then { m with requests := rest }
      else if (libs.split target).1 = "/auth/callback".toList then
        { m with requests := rest, response := some (libs.parseQs (libs.split target).2) }
      else if (libs.split target).1 = "/".toList then { m with requests := rest, server := .reading }
      else { m with requests := rest }
  | .reading => { m with server := .testing (s.redirectUri m.oob) }
  | .testing uri => if m.poison then { m with server := .idle } else { m with server := .setting uri }
  | .setting uri => { m with poison := true, issued := m.issued ++ [s.authParams libs uri], server := .idle }

/-- one step of the main thread -/
def mainStep (libs : Libs) (s : Session) (m : Machine) : Machine :=
  match m.main with
  | .waiting => m
  | .start => { m with oob := true, main := .reading }
  | .reading => { m with main := .testing (s.redirectUri m.oob) }
  | .testing uri => if m.poison then { m with main := .failed } else { m with main := .setting uri }
  | .setting uri => { m with poison := true, issued := m.issued ++ [s.authParams libs uri], main := .printed }
  | .printed => m
  | .failed => m

/-- the initial state: the browser flow if a browser could be opened, else the out-of-band flow (`oidc.py:303-311`) -/
def Machine.init (browser : Bool) (requests : List Str) : Machine :=
  { poison := false, oob := false, response := none, requests := requests, server := .idle,
    main := if browser then .waiting else .start, issued := [] }

/-- the two threads -/
inductive Thread where
  | server | main
deriving DecidableEq, Repr

/-- one scheduled step -/
def step (libs : Libs) (s : Session) (m : Machine) : Thread → Machine
  | .server => serverStep libs s m
  | .main => mainStep libs s m

/-- a schedule -/
def run (libs : Libs) (s : Session) (m : Machine) (schedule : List Thread) : Machine := schedule.foldl (step libs s) m

/-- `d[k][0]` -/
def first (q : Query) (k : Str) : Py Str :=
  match q.get? k with
  | none => .error .keyError
  | some [] => .error .indexError
  | some (v :: _) => .ok v

/-- the checks of the response (`oidc.py:313-330`); `auth_error[0]` is evaluated for the message -/
def checkResponse (state : Str) (q : Query) : Py Str :=
  match q.get? "error".toList with
  | some [] => .error .indexError
  | some (_ :: _) => .error .identity
  | none =>
    match first q "state".toList with
    | .error e => .error e
    | .ok st => if st ≠ state then .error .identity else first q "code".toList

/-- the data of the token request (`oidc.py:332-342`) -/
structure TokenRequest where
  redirectUri : Str
  code : Str
  codeVerifier : Str
deriving DecidableEq, Repr

/-- the token request the main thread makes from state `m`, or the error it raises; `none` while it waits.  `input` is
what the user types. -/
def tokenRequest (s : Session) (input : Str) (m : Machine) : Option (Py TokenRequest) :=
  match m.main with
  | .waiting =>
    match m.response with
    | none => none
    | some q =>
      match checkResponse s.state q with
      | .error e => some (.error e)
      | .ok code => some (.ok ⟨s.redirectUri m.oob, code, s.codeVerifier⟩)
  | .printed => some (.ok ⟨s.redirectUri m.oob, input, s.codeVerifier⟩)
  | .failed => some (.error .idIdentity)
  | _ => none

end Sigstore.OAuth
