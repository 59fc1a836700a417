import Verif.Model.OAuth
import Verif.Model.Url

/-!
# Model of what the OAuth flow tells whom
(`/repo/sigstore/_internal/oidc/oauth.py:103-285`, `/repo/sigstore/oidc.py:272-366`)

The machine of `Model.OAuth` with its outputs: what the local server answers, what is written on the standard error stream, what
is logged and what is sent to the token endpoint.

Simplifications: of the responses of the local server only the status and the header `Location` are kept (the page of the status
200 is a constant); the headers in the first log line and log lines of libraries are left out; targets on which `urlsplit` raises
are not considered (`OAuth.Libs.split` is total).
-/

namespace Sigstore.OAuth

/-- what `Issuer.identity_token` is called with, and the issuer's configuration (`oidc.py:239-278`) -/
structure Client where
  clientId : Str
  clientSecret : Str
  authEndpoint : Str
  tokenEndpoint : Str

/-- the lines that are logged, at level `DEBUG` -/
inductive LogLine where
  /-- `oauth.py:146` -/
  | get (target : Str)
  /-- `oauth.py:156` -/
  | teardown (target : Str)
  /-- `oauth.py:281` -/
  | outOfBand
  /-- `oidc.py:343` -/
  | payload (form : List (Str × Str))
deriving DecidableEq, Repr

/-- the outputs -/
inductive Event where
  /-- `webbrowser.open` -/
  | browser (url : Str)
  /-- `print(…, file=sys.stderr)` -/
  | stderr (text : Str)
  /-- a line of the root logger, or of the logger of the package -/
  | logged (root : Bool) (line : LogLine)
  /-- a response of the local server -/
  | answer (status : Nat) (location : Option Str)
  /-- The connection is closed without a response: an exception in the handler.  The status line and the headers are still in
  the handler's buffer then. -/
  | dropped
  /-- the request to the token endpoint -/
  | token (url : Str) (form : List (Str × Str)) (auth : Str × Str)
deriving DecidableEq, Repr

/-- `_OAuthSession.auth_endpoint` (`oauth.py:214-225`), when it returns -/
def Session.authUrl (libs : Libs) (c : Client) (s : Session) (uri : Str) : Str :=
  Url.authUrl c.authEndpoint c.clientId c.clientSecret (s.authParams libs uri)

/-- what the server thread puts out in its next step (`do_GET`, `oauth.py:145-181`) -/
def serverEvents (libs : Libs) (c : Client) (s : Session) (m : Machine) : List Event :=
  match m.server with
  | .idle =>
    match m.requests with
    | [] => []
    | target :: _ =>
      if m.response ≠ none then [.logged false (.get target), .logged false (.teardown target), .answer 404 none]
      else if (libs.split target).1 = "/auth/callback".toList then [.logged false (.get target), .answer 200 none]
      else if (libs.split target).1 = "/".toList then [.logged false (.get target)]
      else [.logged false (.get target), .answer 404 none]
  | .reading => []
  | .testing _ => if m.poison then [.dropped] else []
  | .setting uri => [.answer 302 (some (s.authUrl libs c uri))]

/-- what the main thread puts out in its next step (`oidc.py:303-311`) -/
def mainEvents (libs : Libs) (c : Client) (s : Session) (m : Machine) : List Event :=
  match m.main with
  | .start => [.logged false .outOfBand]
  | .setting uri => [.stderr ("Go to the following link in a browser:\n\n\t".toList ++ s.authUrl libs c uri)]
  | _ => []

/-- the machine and its outputs so far -/
structure Flow where
  machine : Machine
  events : List Event

/-- one scheduled step -/
def flowStep (libs : Libs) (c : Client) (s : Session) (f : Flow) : Thread → Flow
  | .server => ⟨serverStep libs s f.machine, f.events ++ serverEvents libs c s f.machine⟩
  | .main => ⟨mainStep libs s f.machine, f.events ++ mainEvents libs c s f.machine⟩

/-- the start (`oidc.py:299-305`): `forceOob` is the argument, `opens` whether a browser can be opened -/
def Flow.init (s : Session) (forceOob opens : Bool) (requests : List Str) : Flow :=
  ⟨.init (!forceOob && opens) requests,
   (if forceOob then [] else [.browser s.baseUri]) ++
     (if !forceOob && opens then [.stderr "Waiting for browser interaction...".toList] else [])⟩

/-- a schedule -/
def flow (libs : Libs) (c : Client) (s : Session) (f : Flow) (schedule : List Thread) : Flow :=
  schedule.foldl (flowStep libs c s) f

/-- the form that is sent to the token endpoint (`oidc.py:332-338`) -/
def TokenRequest.form (t : TokenRequest) : List (Str × Str) :=
  [("grant_type".toList, "authorization_code".toList), ("redirect_uri".toList, t.redirectUri), ("code".toList, t.code),
   ("code_verifier".toList, t.codeVerifier)]

/-- everything that `Issuer.identity_token` puts out (`oidc.py:272-352`) if the main thread goes on from this state -/
def outputs (c : Client) (s : Session) (input : Str) (f : Flow) : List Event :=
  f.events ++
    match tokenRequest s input f.machine with
    | some (.ok t) => [.logged true (.payload t.form), .token c.tokenEndpoint t.form (c.clientId, c.clientSecret)]
    | _ => []

/-- The outputs without the log lines that the loggers do not write.  `-v` sets the level of the logger of the package to `DEBUG`,
`-vv` that of the root logger too (`_cli.py:634-637`). -/
def written (package root : Bool) (events : List Event) : List Event :=
  events.filter fun
    | .logged true _ => root
    | .logged false _ => package
    | _ => true

end Sigstore.OAuth
