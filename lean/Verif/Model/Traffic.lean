import Verif.Model.Url
import Verif.Model.SigningConfig

/-!
# Model of signing with the HTTP requests that it sends

The clients of `/repo/sigstore/_internal/fulcio/client.py`, `rekor/client.py`, `rekor/client_v2.py` and `timestamp.py`, and
`/repo/sigstore/sign.py:76-274` on top of them, in a monad that records every request.  The services are arbitrary: an
answer may depend on all requests sent so far.

Simplifications: a request is what the code passes to `requests` (no default headers; for redirects and `.netrc` see
`Model/Redirects.lean`); a
request for which `requests` raises counts as sent; one clock reading per call.
-/

namespace Sigstore.Traffic

open Sigstore.Trust Sigstore.LogEntry Sigstore.Dsse Sigstore.Rekor Sigstore.Signing Sigstore.Http Sigstore.Url
open Sigstore.Config (ContextServices RekorHandle)

/-- What the body of a request is made of.  Its serialisation is a function of that: JSON for certificate and entry
requests, DER for timestamp queries. -/
inductive Payload where
  | csr (csr : Csr)
  | query (der : Bytes)
  | entry (request : EntryRequest)
deriving DecidableEq, Repr

/-- a request, as given to `requests`: all of them are `POST`s -/
structure Request where
  url : Str
  headers : List (Str × Str)
  payload : Payload
deriving DecidableEq, Repr

/-- the services: what `session.post` returns or raises, given all earlier requests -/
abbrev Services := List Request → Request → Py Response

/-- the state: keys generated and certificate requests so far (`World`), and all requests sent -/
structure Net where
  world : World
  sent : List Request

/-- a computation that may send requests -/
abbrev Action (α : Type) := Services → Net → Py α × Net

/-- a computation that sends nothing -/
def pure {α : Type} (x : Py α) : Action α := fun _ n => (x, n)

/-- sequencing: exceptions end the computation -/
def andThen {α β : Type} (x : Action α) (f : α → Action β) : Action β := fun srv n =>
  match x srv n with
  | (.error e, n) => (.error e, n)
  | (.ok a, n) => f a srv n

/-- `session.post(...)` -/
def post (r : Request) : Action Response := fun srv n => (srv n.sent r, { n with sent := n.sent ++ [r] })

/-- The library functions that the clients use: URLs, `json.loads`, PEM certificates, timestamp queries (with a nonce;
`none` is a `ValueError`) and responses, Rekor entries of either API version; and `USER_AGENT`. -/
structure Libs where
  urls : UrlLibs
  loads : Str → Option Json
  loadPem : Bytes → Option Cert
  buildQuery : Bytes → Option Bytes
  decodeTsr : Bytes → Option Tsr
  entryV1 : EntryLibs
  entryV2 : Json → Option LogEntry
  userAgent : Str

/-- `FulcioSigningCert.post` (`fulcio/client.py:93-134`) with `FulcioClient.signing_cert` (`fulcio/client.py:181-188`) -/
def fulcioPost (libs : Libs) (url token : Str) (csr : Csr) : Action (Cert × List Cert) :=
  andThen (pure (fulcioSigningCertUrl libs.urls url)) fun endpoint =>
    andThen
      (post { url := endpoint
              headers := [("User-Agent".toList, libs.userAgent), ("Authorization".toList, "Bearer ".toList ++ token),
                          ("Content-Type".toList, "application/json".toList),
                          ("Accept".toList, "application/pem-certificate-chain".toList)]
              payload := .csr csr })
      fun r => pure (fulcioSigningCert libs.loads libs.loadPem (.ok r))

/-- `TimestampAuthorityClient.request_timestamp` (`timestamp.py:74-133`): a `RequestException` is a `TimestampError` -/
def requestTimestamp (libs : Libs) (url : Str) (signature : Bytes) : Action Tsr := fun srv n =>
  match libs.buildQuery signature with
  | none => (.error .timestamp, n)
  | some der =>
    let request : Request :=
      { url := url
        headers := [("Content-Type".toList, "application/timestamp-query".toList), ("User-Agent".toList, libs.userAgent)]
        payload := .query der }
    (tsaRequest libs.buildQuery (fun _ => srv n.sent request) libs.decodeTsr signature,
     { n with sent := n.sent ++ [request] })

/-- the headers of the Rekor sessions (`rekor/client.py:243-259`, `client_v2.py:61-76`) -/
def rekorHeaders (libs : Libs) : List (Str × Str) :=
  [("Content-Type".toList, "application/json".toList), ("Accept".toList, "application/json".toList),
   ("User-Agent".toList, libs.userAgent)]

/-- `RekorClient.create_entry` (`rekor/client.py:138-156, 268-274`) or `RekorV2Client.create_entry`
(`client_v2.py:78-103`) -/
def createEntry (libs : Libs) (rekor : RekorHandle) (request : EntryRequest) : Action LogEntry :=
  match rekor with
  | .v1 url =>
    andThen (post { url := rekorEntriesUrl url, headers := rekorHeaders libs, payload := .entry request }) fun r =>
      pure (rekorEntriesPost libs.entryV1 (.ok r))
  | .v2 url =>
    andThen (post { url := rekorV2EntriesUrl url, headers := rekorHeaders libs, payload := .entry request }) fun r =>
      pure (rekorV2CreateEntry libs.entryV2 (.ok r))

/-- which API a client speaks -/
def apiVersion : RekorHandle → ApiVersion
  | .v1 _ => .v1
  | .v2 _ => .v2

/-- the identity token of a `Signer`: its text, and whether it is in its validity period now -/
structure Token where
  raw : Str
  valid : Bool

/-- `SigningContext` (`sign.py:277-302`) with what is fixed during a call: the trusted root, the services' clients, the
libraries, the key pairs -/
structure Context where
  env : Env
  root : TrustedRoot Cert
  services : ContextServices
  libs : Libs
  keys : KeyPairs

/-- `Signer._private_key` (`sign.py:110-116`) -/
def privateKey (s : Signer) : Action Nat := fun _ n =>
  let (k, w) := s.privateKey n.world
  (.ok k, { n with world := w })

/-- the request for a certificate (`sign.py:166-182`); the `World` records it as well -/
def requestCert (ctx : Context) (now : Time) (token : Token) (s : Signer) : Action Cert :=
  andThen (privateKey s) fun k =>
    andThen (fun _ n => (.ok (), { n with world := { n.world with posts := n.world.posts ++ [⟨ctx.keys.pub k⟩] } })) fun () =>
      andThen (fulcioPost ctx.libs ctx.services.fulcio token.raw ⟨ctx.keys.pub k⟩) fun answer =>
        andThen (pure (checkNewCert ctx.env ⟨ctx.root, apiVersion ctx.services.rekor⟩ now answer.1 answer.2)) fun () =>
          pure (.ok answer.1)

/-- `Signer._signing_cert` (`sign.py:144-182`) -/
def signingCert (ctx : Context) (now : Time) (token : Token) (s : Signer) : Action Cert :=
  match s.cachedCert with
  | some cert => pure (if now > cert.notAfter then .error .expiredCertificate else .ok cert)
  | none => if !token.valid then pure (.error .expiredIdentity) else requestCert ctx now token s

/-- the loop over the timestamp clients (`sign.py:193-201`) -/
def collectTimestamps (libs : Libs) (signature : Bytes) : List Str → Action (List Tsr)
  | [] => pure (.ok [])
  | url :: rest => fun srv n =>
    match requestTimestamp libs url signature srv n with
    | (.error e, n) => if e = .timestamp then collectTimestamps libs signature rest srv n else (.error e, n)
    | (.ok t, n) => andThen (collectTimestamps libs signature rest) (fun ts => pure (.ok (t :: ts))) srv n

/-- `Signer._finalize_sign` (`sign.py:184-209`) -/
def finalizeSign (ctx : Context) (cert : Cert) (content : Content) (signature : Bytes) (request : EntryRequest) :
    Action Bundle :=
  andThen (collectTimestamps ctx.libs signature ctx.services.tsas) fun ts =>
    andThen (createEntry ctx.libs ctx.services.rekor request) fun entry =>
      pure (Bundle.fromParts ctx.env cert (some content) entry (some ts))

/-- `Signer.sign_artifact` (`sign.py:234-274`) -/
def signArtifact (ctx : Context) (now : Time) (token : Token) (nonce : Nat) (s : Signer) (input : HashInput) :
    Action Bundle :=
  andThen (signingCert ctx now token s) fun cert =>
    andThen (privateKey s) fun k =>
      andThen (pure (signPrehashed ctx.keys k nonce (sha256Digest ctx.env.crypto input))) fun signature =>
        andThen (pure (hashedRekordRequest (apiVersion ctx.services.rekor) (sha256Digest ctx.env.crypto input) signature cert))
          fun request =>
            finalizeSign ctx cert
              (.message { digest := some (sha256Digest ctx.env.crypto input).digest, signature := signature }) signature request

/-- `Signer.sign_dsse` (`sign.py:211-232`) -/
def signDsse (ctx : Context) (now : Time) (token : Token) (nonce : Nat) (s : Signer) (stmt : Statement) : Action Bundle :=
  andThen (signingCert ctx now token s) fun cert =>
    andThen (privateKey s) fun k =>
      andThen (pure (dsseSign (fun data => ctx.keys.sign k nonce (ctx.env.crypto.sha256 data)) stmt)) fun envelope =>
        andThen (pure (dsseRequest ctx.env.crypto (apiVersion ctx.services.rekor) envelope cert)) fun request =>
          andThen (pure (envelopeInit envelope)) fun signature =>
            finalizeSign ctx cert (.envelope envelope) signature request

/-- `signer.sign_artifact(...)` or `signer.sign_dsse(...)` -/
def sign (ctx : Context) (now : Time) (token : Token) (nonce : Nat) (s : Signer) : Call → Action Bundle
  | .artifact input => signArtifact ctx now token nonce s input
  | .dsse stmt => signDsse ctx now token nonce s stmt

/-- `Signer.__init__` (`sign.py:81-108`) -/
def init (ctx : Context) (now : Time) (token : Token) (cache : Bool) : Action Signer :=
  if cache then
    andThen (fun _ n => (.ok n.world.keys, { n with world := { n.world with keys := n.world.keys + 1 } })) fun k =>
      andThen (signingCert ctx now token { cachedKey := some k, cachedCert := none }) fun cert =>
        pure (.ok { cachedKey := some k, cachedCert := some cert })
  else pure (.ok { cachedKey := none, cachedCert := none })

/-- one call: the clock, whether the token is valid then, the nonce and what is signed -/
structure Job where
  now : Time
  tokenValid : Bool
  nonce : Nat
  call : Call

/-- a sequence of calls on one `Signer`; the results and the final state -/
def run (ctx : Context) (token : Str) (s : Signer) (srv : Services) (n : Net) : List Job → List (Py Bundle) × Net
  | [] => ([], n)
  | j :: rest =>
    match sign ctx j.now ⟨token, j.tokenValid⟩ j.nonce s j.call srv n with
    | (r, n) =>
      match run ctx token s srv n rest with
      | (rs, n) => (r :: rs, n)

/-- a whole session: create a `Signer` and make calls on it (the calls are not made if creating it fails) -/
def session (ctx : Context) (token : Str) (now : Time) (tokenValid cache : Bool) (jobs : List Job) (srv : Services) (n : Net) :
    Py (List (Py Bundle)) × Net :=
  match init ctx now ⟨token, tokenValid⟩ cache srv n with
  | (.error e, n) => (.error e, n)
  | (.ok s, n) =>
    match run ctx token s srv n jobs with
    | (rs, n) => (.ok rs, n)

end Sigstore.Traffic
