import Verif.Model.Traffic
import Verif.Model.OAuthTraffic

/-!
# Model of requests whose services answer with redirects

All clients call `get` and `post` of a `requests.Session` without `allow_redirects` (`fulcio/client.py:105,144`,
`rekor/client.py:93-184`, `client_v2.py:90`, `timestamp.py:116`, `oidc.py:255,345`), so redirects are followed.  What then goes
over the wire is decided by `requests` (`Session.send`, `resolve_redirects`, `rebuild_method`, `rebuild_auth` and
`should_strip_auth` of `requests/sessions.py`), which is transcribed here from release 2.32.3 (the copy that `pip` carries); it is
not part of `/repo`, and `pyproject.toml:34` does not pin its version.

Simplifications: no cookies and no proxies; default headers are left out; the URL is not normalised before it is first used; a
request for which `requests` raises counts as sent; header names are written as the clients write them.
-/

namespace Sigstore.Redirects

open Sigstore.Http

/-- the parts of a URL that matter for credentials: `urlparse(url).scheme`, `.hostname` and `.port` -/
structure UrlParts where
  scheme : Str
  host : Option Str
  port : Option Nat
deriving DecidableEq, Repr

/-- the library functions: parsing a URL (total: ports that are no numbers are not considered), the URL that a `Location` means,
and, as the value of the header `Authorization`, `get_netrc_auth(url)` and `get_auth_from_url(url)` -/
structure Libs where
  parts : Str → UrlParts
  target : (url location : Str) → Py Str
  netrc : Str → Option Str
  userinfo : Str → Option Str

/-- the methods that the clients use -/
inductive Method where
  | get
  | post
deriving DecidableEq, Repr

/-- a request on the wire -/
structure WireRequest (β : Type) where
  method : Method
  url : Str
  headers : List (Str × Str)
  body : Option β
deriving DecidableEq, Repr

/-- an answer: the response, and its header `Location` -/
structure Reply where
  response : Response
  location : Option Str

/-- whoever answers requests on the wire, given all earlier ones -/
abbrev WireServices (β : Type) := List (WireRequest β) → WireRequest β → Py Reply

/-- the name of the header with credentials -/
def authorization : Str := "Authorization".toList

/-- `del headers[name]` -/
def without (names : List Str) (headers : List (Str × Str)) : List (Str × Str) := headers.filter fun h => h.1 ∉ names

/-- `headers["Authorization"] = value` -/
def withAuthorization (value : Str) (headers : List (Str × Str)) : List (Str × Str) :=
  without [authorization] headers ++ [(authorization, value)]

/-- `DEFAULT_PORTS.get(scheme)` -/
def defaultPort (scheme : Str) : Option Nat :=
  if scheme = "http".toList then some 80 else if scheme = "https".toList then some 443 else none

/-- `port in (DEFAULT_PORTS.get(scheme), None)` -/
def isDefault (scheme : Str) (port : Option Nat) : Bool := port = defaultPort scheme || port = none

/-- `Session.should_strip_auth` -/
def shouldStripAuth (old new : UrlParts) : Bool :=
  if old.host ≠ new.host then true
  else if old.scheme = "http".toList ∧ isDefault old.scheme old.port ∧ new.scheme = "https".toList ∧ isDefault new.scheme new.port then
    false
  else if old.scheme = new.scheme ∧ isDefault old.scheme old.port ∧ isDefault old.scheme new.port then false
  else old.port ≠ new.port || old.scheme ≠ new.scheme

/-- `Response.is_redirect` and `get_redirect_target`: the location of a redirect (an empty one ends `while url:`) -/
def Reply.redirect? (r : Reply) : Option Str :=
  if r.response.status ∈ [301, 302, 303, 307, 308] then r.location.filter (· ≠ []) else none

/-- `Session.rebuild_method`, for the methods that occur -/
def rebuildMethod (status : Nat) (m : Method) : Method := if status = 302 ∨ status = 303 ∨ status = 301 then .get else m

/-- the next request (the loop of `resolve_redirects`, with `rebuild_auth`) -/
def redirected {β : Type} (libs : Libs) (status : Nat) (req : WireRequest β) (url : Str) : WireRequest β :=
  let keep : Bool := status = 307 || status = 308
  let headers := if keep then req.headers else
    without ["Content-Length".toList, "Content-Type".toList, "Transfer-Encoding".toList] req.headers
  let headers := if shouldStripAuth (libs.parts req.url) (libs.parts url) then without [authorization] headers else headers
  { method := rebuildMethod status req.method
    url := url
    headers := match libs.netrc url with | none => headers | some v => withAuthorization v headers
    body := if keep then req.body else none }

/-- `Session.send`: the response that ends the redirects, and all requests sent so far -/
def follow {β : Type} (libs : Libs) (ws : WireServices β) : Nat → List (WireRequest β) → WireRequest β →
    Py Response × List (WireRequest β)
  | n, sent, req =>
    match ws sent req with
    | .error e => (.error e, sent ++ [req])
    | .ok reply =>
      match reply.redirect? with
      | none => (.ok reply.response, sent ++ [req])
      | some location =>
        match n with
        | 0 => (.error .requestsOther, sent ++ [req])
        | n + 1 =>
          match libs.target req.url location with
          | .error e => (.error e, sent ++ [req])
          | .ok url => follow libs ws n (sent ++ [req]) (redirected libs reply.response.status req url)

/-- `DEFAULT_REDIRECT_LIMIT` -/
def maxRedirects : Nat := 30

/-- `Session.prepare_request` and `PreparedRequest.prepare_auth` without `auth`: an entry of `~/.netrc` for the host, or a user in
the URL, takes the place of the header -/
def prepared {β : Type} (libs : Libs) (req : WireRequest β) : WireRequest β :=
  match (libs.netrc req.url).or (libs.userinfo req.url) with
  | none => req
  | some v => { req with headers := withAuthorization v req.headers }

/-- a request of signing (`Model/Traffic.lean`) -/
def ofRequest (libs : Libs) (r : Traffic.Request) : WireRequest Traffic.Payload :=
  prepared libs ⟨.post, r.url, r.headers, some r.payload⟩

/-- all requests on the wire, for the requests of a session -/
def wireTrace (libs : Libs) (ws : WireServices Traffic.Payload) : List (WireRequest Traffic.Payload) → List Traffic.Request →
    List (WireRequest Traffic.Payload)
  | sent, [] => sent
  | sent, r :: rs => wireTrace libs ws (follow libs ws maxRedirects sent (ofRequest libs r)).2 rs

/-- what the clients get from `session.post`, if redirects are followed -/
def services (libs : Libs) (ws : WireServices Traffic.Payload) : Traffic.Services := fun sent r =>
  (follow libs ws maxRedirects (wireTrace libs ws [] sent) (ofRequest libs r)).1

/-- the request to the token endpoint (`oidc.py:345-350`); `basic` is `_basic_auth_str`.  With `auth`, `~/.netrc` is not asked. -/
def ofTokenRequest (basic : Str → Str → Str) (headers : List (Str × Str)) (c : OAuth.Client) (t : OAuth.TokenRequest) :
    WireRequest (List (Str × Str)) :=
  ⟨.post, c.tokenEndpoint, withAuthorization (basic c.clientId c.clientSecret) headers, some t.form⟩

end Sigstore.Redirects
