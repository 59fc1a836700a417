import Verif.Model.Tuf
import Verif.Model.Http

/-!
# Model of the functions of `urllib.parse` that the clients use, and of the URLs that the clients request

`/repo/sigstore/_internal/fulcio/client.py:42-43, 181-197`, `/repo/sigstore/_internal/rekor/client.py:100-105, 158-163, 220-225, 261-266`,
`/repo/sigstore/_internal/rekor/client_v2.py:54-59, 91-94`, `/repo/sigstore/oidc.py:250-252`, `/repo/sigstore/_internal/tuf.py:117-121`,
`/repo/sigstore/_internal/oidc/oauth.py:214-237`.
The library functions follow CPython 3.11; texts are `str`, and fragments are allowed.
-/

namespace Sigstore.Url

open Sigstore.Tuf

/-! ## Splitting URLs -/

/-- `s.partition(c)`: what is before the first `c`, and what is after it if there is one -/
def partition (c : Char) : Str → Str × Option Str
  | [] => ([], none)
  | x :: xs =>
    if x = c then ([], some xs)
    else ((x :: (partition c xs).1), (partition c xs).2)

/-- `s.split(c)` -/
def splitOn (c : Char) : Str → List Str
  | [] => [[]]
  | x :: xs =>
    if x = c then [] :: splitOn c xs
    else
      match splitOn c xs with
      | [] => [[x]]
      | s :: rest => (x :: s) :: rest

/-- `c.join(l)` -/
def joinWith (c : Char) : List Str → Str
  | [] => []
  | [s] => s
  | s :: rest => s ++ c :: joinWith c rest

/-- the checks of a network location that need tables: whether the text between brackets is an IPv6 address
(`_check_bracketed_host`), and whether a text with other than ASCII characters is safe under NFKC (`_checknetloc`) -/
structure UrlLibs where
  bracketed : Str → Bool
  nfkc : Str → Bool

/-- the result of `urlsplit` -/
structure Split where
  scheme : Str
  netloc : Str
  path : Str
  query : Str
  fragment : Str
deriving DecidableEq, Repr

/-- a letter of ASCII -/
def isAlpha (c : Char) : Bool := ('a' ≤ c && c ≤ 'z') || ('A' ≤ c && c ≤ 'Z')

/-- `c in scheme_chars` -/
def isSchemeChar (c : Char) : Bool := isAlpha c || ('0' ≤ c && c ≤ '9') || c = '+' || c = '-' || c = '.'

/-- `c.lower()` for a character of a scheme -/
def lower (c : Char) : Char := if 'A' ≤ c ∧ c ≤ 'Z' then Char.ofNat (c.toNat + 32) else c

/-- `url.lstrip(_WHATWG_C0_CONTROL_OR_SPACE)`, without tabs, carriage returns and newlines -/
def clean (url : Str) : Str :=
  (url.dropWhile fun c => c.toNat ≤ 32).filter fun c => c ≠ '\t' && c ≠ '\r' && c ≠ '\n'

/-- the scheme of a URL, or the default one, and what follows -/
def splitScheme (dflt url : Str) : Str × Str :=
  match partition ':' url with
  | (c :: cs, some rest) =>
    if isAlpha c && (c :: cs).all isSchemeChar then ((c :: cs).map lower, rest) else (dflt, url)
  | _ => (dflt, url)

/-- a character that ends the network location -/
def endsNetloc (c : Char) : Bool := c = '/' || c = '?' || c = '#'

/-- `_splitnetloc(url, 2)` if the URL has a network location -/
def splitNetloc (url : Str) : Str × Str :=
  match url with
  | '/' :: '/' :: rest => (rest.takeWhile fun c => !endsNetloc c, rest.dropWhile fun c => !endsNetloc c)
  | _ => ([], url)

/-- the checks of the network location in `urlsplit` and `_checknetloc` -/
def checkNetloc (libs : UrlLibs) (netloc : Str) : Py Unit :=
  if ('[' ∈ netloc ∧ ']' ∉ netloc) ∨ (']' ∈ netloc ∧ '[' ∉ netloc) then .error .valueError
  else if '[' ∈ netloc ∧ libs.bracketed (partition ']' ((partition '[' netloc).2.getD [])).1 = false then .error .valueError
  else if netloc.any (fun c => 128 ≤ c.toNat) ∧ libs.nfkc netloc = false then .error .valueError
  else .ok ()

/-- `urlsplit(url, scheme)` -/
def urlsplit (libs : UrlLibs) (url dflt : Str) : Py Split :=
  let (scheme, url) := splitScheme dflt (clean url)
  let (netloc, url) := splitNetloc url
  match checkNetloc libs netloc with
  | .error e => .error e
  | .ok () =>
    let (url, fragment) := partition '#' url
    let (path, query) := partition '?' url
    .ok ⟨scheme, netloc, path, query.getD [], fragment.getD []⟩

/-- `uses_relative` -/
def usesRelative : List Str :=
  ["".toList, "ftp".toList, "http".toList, "gopher".toList, "nntp".toList, "imap".toList, "wais".toList, "file".toList,
   "https".toList, "shttp".toList, "mms".toList, "prospero".toList, "rtsp".toList, "rtsps".toList, "rtspu".toList,
   "sftp".toList, "svn".toList, "svn+ssh".toList, "ws".toList, "wss".toList]

/-- `uses_netloc` -/
def usesNetloc : List Str :=
  ["".toList, "ftp".toList, "http".toList, "gopher".toList, "nntp".toList, "telnet".toList, "imap".toList, "wais".toList,
   "file".toList, "mms".toList, "https".toList, "shttp".toList, "snews".toList, "prospero".toList, "rtsp".toList,
   "rtsps".toList, "rtspu".toList, "rsync".toList, "svn".toList, "svn+ssh".toList, "sftp".toList, "nfs".toList,
   "git".toList, "git+ssh".toList, "ws".toList, "wss".toList]

/-- `uses_params` -/
def usesParams : List Str :=
  ["".toList, "ftp".toList, "hdl".toList, "prospero".toList, "http".toList, "imap".toList, "https".toList, "shttp".toList,
   "rtsp".toList, "rtsps".toList, "rtspu".toList, "sip".toList, "sips".toList, "mms".toList, "sftp".toList, "tel".toList]

/-- the result of `urlparse`: `urlsplit` with the parameters of the last segment taken off the path -/
structure Parsed where
  scheme : Str
  netloc : Str
  path : Str
  params : Str
  query : Str
  fragment : Str
deriving DecidableEq, Repr

/-- everything up to and including the last `/`, and the rest -/
def splitLastSlash (path : Str) : Str × Str :=
  ((path.reverse.dropWhile fun c => c ≠ '/').reverse, (path.reverse.takeWhile fun c => c ≠ '/').reverse)

/-- `_splitparams`: parameters are looked for in the last segment only -/
def splitParams (path : Str) : Str × Str :=
  match partition ';' (splitLastSlash path).2 with
  | (a, some b) => ((splitLastSlash path).1 ++ a, b)
  | (_, none) => (path, [])

/-- `urlparse(url, scheme)` -/
def urlparse (libs : UrlLibs) (url dflt : Str) : Py Parsed :=
  match urlsplit libs url dflt with
  | .error e => .error e
  | .ok s =>
    let (path, params) := if s.scheme ∈ usesParams then splitParams s.path else (s.path, [])
    .ok ⟨s.scheme, s.netloc, path, params, s.query, s.fragment⟩

/-- `urlunparse` -/
def urlunparse (p : Parsed) : Str :=
  let url := if p.params = [] then p.path else p.path ++ ';' :: p.params
  let url :=
    if p.netloc ≠ [] ∨ (p.scheme ≠ [] ∧ p.scheme ∈ usesNetloc) ∨ url.take 2 = ['/', '/'] then
      '/' :: '/' :: p.netloc ++ (if url ≠ [] ∧ url.head? ≠ some '/' then '/' :: url else url)
    else url
  let url := if p.scheme ≠ [] then p.scheme ++ ':' :: url else url
  let url := if p.query ≠ [] then url ++ '?' :: p.query else url
  if p.fragment ≠ [] then url ++ '#' :: p.fragment else url

/-- `.` and `..` in the loop of `urljoin`; the first argument is the resolved path, last segment first -/
def resolve : List Str → List Str → List Str
  | acc, [] => acc.reverse
  | acc, s :: rest =>
    if s = "..".toList then resolve acc.tail rest
    else if s = ".".toList then resolve acc rest
    else resolve (s :: acc) rest

/-- `segments[1:-1] = filter(None, segments[1:-1])` -/
def dropEmpty : List Str → List Str
  | [] => []
  | [s] => [s]
  | s :: rest => s :: (rest.dropLast.filter fun x => x ≠ []) ++ [rest.getLastD []]

/-- the path of the joined URL -/
def joinPath (bpath path : Str) : Str :=
  let baseParts := splitOn '/' bpath
  let baseParts := if baseParts.getLastD [] ≠ [] then baseParts.dropLast else baseParts
  let segments := if path.head? = some '/' then splitOn '/' path else dropEmpty (baseParts ++ splitOn '/' path)
  let resolved := resolve [] segments
  let resolved :=
    if segments.getLastD [] = ".".toList ∨ segments.getLastD [] = "..".toList then resolved ++ [[]] else resolved
  if joinWith '/' resolved = [] then ['/'] else joinWith '/' resolved

/-- `urljoin(base, url)` -/
def urljoin (libs : UrlLibs) (base url : Str) : Py Str :=
  if base = [] then .ok url
  else if url = [] then .ok base
  else
    match urlparse libs base [] with
    | .error e => .error e
    | .ok b =>
      match urlparse libs url b.scheme with
      | .error e => .error e
      | .ok u =>
        if u.scheme ≠ b.scheme ∨ u.scheme ∉ usesRelative then .ok url
        else if u.scheme ∈ usesNetloc ∧ u.netloc ≠ [] then .ok (urlunparse u)
        else
          let netloc := if u.scheme ∈ usesNetloc then b.netloc else u.netloc
          if u.path = [] ∧ u.params = [] then
            .ok (urlunparse ⟨u.scheme, netloc, b.path, b.params, if u.query = [] then b.query else u.query, u.fragment⟩)
          else .ok (urlunparse ⟨u.scheme, netloc, joinPath b.path u.path, u.params, u.query, u.fragment⟩)

/-! ## Query strings -/

/-- one byte in `quote_plus`: a space is a `+`, the others as in `quote` -/
def quotePlusByte (b : UInt8) : Str := if b = 32 then ['+'] else quoteByte b

/-- `quote_plus(s)` -/
def quotePlus (s : Str) : Str := (utf8 s).flatMap quotePlusByte

/-- `urlencode(params)` for texts -/
def urlencode (params : List (Str × Str)) : Str :=
  joinWith '&' (params.map fun p => quotePlus p.1 ++ '=' :: quotePlus p.2)

/-- value of a hex digit in an escape (`_hexdig`) -/
def escapeDigit (c : Char) : Option Nat := hexVal c

/-- `unquote_to_bytes(s)` for ASCII text: `%` and two hex digits are a byte, any other `%` is itself -/
def unquoteToBytes : Str → Bytes
  | [] => []
  | [c] => [UInt8.ofNat c.toNat]
  | [c, d] => [UInt8.ofNat c.toNat, UInt8.ofNat d.toNat]
  | c :: d :: e :: rest =>
    if c = '%' then
      match escapeDigit d, escapeDigit e with
      | some x, some y => UInt8.ofNat (16 * x + y) :: unquoteToBytes rest
      | _, _ => UInt8.ofNat c.toNat :: unquoteToBytes (d :: e :: rest)
    else UInt8.ofNat c.toNat :: unquoteToBytes (d :: e :: rest)

/-- `unquote(s)`: each run of ASCII characters is unescaped and decoded; `decode` is `bytes.decode("utf-8", "replace")`, and
the first argument is the current run, last character first -/
def unquote (decode : Bytes → Str) : Str → Str → Str
  | run, [] => decode (unquoteToBytes run.reverse)
  | run, c :: cs =>
    if c.toNat < 128 then unquote decode (c :: run) cs
    else decode (unquoteToBytes run.reverse) ++ c :: unquote decode [] cs

/-- `unquote_plus(s)` -/
def unquotePlus (decode : Bytes → Str) (s : Str) : Str := unquote decode [] (s.map fun c => if c = '+' then ' ' else c)

/-- the pairs of `parse_qsl(qs)`: pieces without a value are dropped -/
def parseQsl (decode : Bytes → Str) (qs : Str) : List (Str × Str) :=
  (splitOn '&' qs).filterMap fun piece =>
    match partition '=' piece with
    | (name, some (c :: cs)) => some (unquotePlus decode name, unquotePlus decode (c :: cs))
    | _ => none

/-- `parse_qs(qs)` -/
def parseQs (decode : Bytes → Str) (qs : Str) : OAuth.Query :=
  (parseQsl decode qs).foldl (fun d p => Dict.set d p.1 ((Dict.get? d p.1).getD [] ++ [p.2])) []

/-- the library functions of the redirect server (`oauth.py:161, 175`).  If `urlsplit` raises, the request is not handled. -/
def oauthLibs (urls : UrlLibs) (decode : Bytes → Str) (sha256 : Bytes → Bytes) : OAuth.Libs where
  split := fun target =>
    match urlsplit urls target [] with
    | .error _ => ([], [])
    | .ok s => (s.path, s.query)
  parseQs := parseQs decode
  sha256 := sha256

/-! ## Endpoints -/

/-- `FulcioClient.signing_cert` (`fulcio/client.py:181-188`); the path is `SIGNING_CERT_ENDPOINT` (`fulcio/client.py:42`) -/
def fulcioSigningCertUrl (libs : UrlLibs) (url : Str) : Py Str := urljoin libs url "/api/v2/signingCert".toList

/-- `FulcioClient.trust_bundle` (`fulcio/client.py:190-197`); the path is `TRUST_BUNDLE_ENDPOINT` (`fulcio/client.py:43`) -/
def fulcioTrustBundleUrl (libs : UrlLibs) (url : Str) : Py Str := urljoin libs url "/api/v2/trustBundle".toList

/-- `RekorClient(url).log` (`rekor/client.py:220-225, 261-266`) -/
def rekorLogUrl (url : Str) : Str := url ++ "/api/v1".toList ++ "/log".toList

/-- `RekorLog.entries` (`rekor/client.py:100-106`) -/
def rekorEntriesUrl (url : Str) : Str := rekorLogUrl url ++ "/entries".toList

/-- `RekorEntries.retrieve` (`rekor/client.py:158-163`) -/
def rekorRetrieveUrl (url : Str) : Str := rekorEntriesUrl url ++ "/retrieve/".toList

/-- where `RekorV2Client.create_entry` posts (`rekor/client_v2.py:54-59, 91-94`) -/
def rekorV2EntriesUrl (url : Str) : Str := url ++ "/api/v2".toList ++ "/log/entries".toList

/-- the configuration document of an issuer (`oidc.py:250-252`) -/
def oidcConfigUrl (libs : UrlLibs) (baseUrl : Str) : Py Str :=
  urljoin libs (baseUrl ++ "/".toList) ".well-known/openid-configuration".toList

/-- `target_base_url` of the TUF updater (`tuf.py:82, 120`) -/
def tufTargetsUrl (libs : UrlLibs) (url : Str) : Py Str := urljoin libs (stripSlashes url ++ "/".toList) "targets/".toList

/-! ## The authorization request -/

/-- `code_verifier` of an `_OAuthSession` (`oauth.py:196-198`), from 32 random bytes -/
def codeVerifier (random : Bytes) : Str := OAuth.urlsafeB64 random

/-- `_OAuthSession._auth_params` (`oauth.py:227-237`) -/
def authQuery (clientId clientSecret : Str) (p : OAuth.AuthParams) : List (Str × Str) :=
  [("response_type".toList, "code".toList), ("client_id".toList, clientId), ("client_secret".toList, clientSecret),
   ("scope".toList, "openid email".toList), ("redirect_uri".toList, p.redirectUri),
   ("code_challenge".toList, p.codeChallenge), ("code_challenge_method".toList, "S256".toList), ("state".toList, p.state)]

/-- the URL that `_OAuthSession.auth_endpoint` returns (`oauth.py:224-225`) -/
def authUrl (endpoint clientId clientSecret : Str) (p : OAuth.AuthParams) : Str :=
  endpoint ++ '?' :: urlencode (authQuery clientId clientSecret p)

end Sigstore.Url
