import Verif.Model.RekorRequest

/-!
# Model of `/repo/sigstore/sign.py`, `FulcioSigningCert.post` and `TimestampAuthorityClient.request_timestamp`

Everything a signing call observes from outside (clock, identity token, Fulcio, timestamp authorities, Rekor,
signature nonces) is given by one `Answers` per call; answers may differ from call to call in any way.
Simplification: one clock reading per call.
-/

namespace Sigstore.Signing

open Sigstore.Trust Sigstore.LogEntry Sigstore.Dsse Sigstore.Sct Sigstore.Rekor

/-! ## Fulcio and timestamp clients -/

/-- what Fulcio answers: an HTTP error status, JSON without a chain (`KeyError`), or PEM certificates -/
inductive FulcioReply where
  | httpError
  | noChain
  | certificates (pems : List Bytes)
deriving DecidableEq, Repr

/-- `load_pem_x509_certificate` over a list; `none` is a `ValueError` -/
def loadPems (loadPem : Bytes → Option Cert) : List Bytes → Py (List Cert)
  | [] => .ok []
  | b :: bs =>
    match loadPem b with
    | none => .error .valueError
    | some c =>
      match loadPems loadPem bs with
      | .error e => .error e
      | .ok cs => .ok (c :: cs)

/-- `FulcioSigningCert.post` (`/repo/sigstore/_internal/fulcio/client.py:93-134`) after the HTTP exchange.  A
response with an error status is falsy, so the message is never extracted. -/
def fulcioPost (loadPem : Bytes → Option Cert) : FulcioReply → Py (Cert × List Cert)
  | .httpError => .error .fulcioClient
  | .noChain => .error .fulcioClient
  | .certificates pems =>
    if pems.length < 2 then .error .fulcioClient
    else
      match loadPems loadPem pems with
      | .error e => .error e
      | .ok [] => .error .indexError
      | .ok (c :: cs) => .ok (c, cs)

/-- a timestamp authority as seen by the client: request building (`none` is a `ValueError`), the HTTP exchange
(`none` is a `requests.RequestException`) and decoding of responses (`none` is a `ValueError`) -/
structure TsaServer where
  build : Bytes → Option Bytes
  post : Bytes → Option Bytes
  decode : Bytes → Option Tsr

/-- `TimestampAuthorityClient.request_timestamp` (`/repo/sigstore/_internal/timestamp.py:90-133`) -/
def requestTimestamp (s : TsaServer) (signature : Bytes) : Py Tsr :=
  match s.build signature with
  | none => .error .timestamp
  | some req =>
    match s.post req with
    | none => .error .timestamp
    | some content =>
      match s.decode content with
      | none => .error .timestamp
      | some t => .ok t

/-! ## Signer -/

/-- a certificate signing request: empty subject, so only the public key (`sign.py:118-142`) -/
structure Csr where
  pubKey : PubKey
deriving DecidableEq, Repr

/-- key pairs: the `k`-th generated private key is the number `k`; ECDSA signing of a digest uses a nonce -/
structure KeyPairs where
  pub : Nat → PubKey
  sign : Nat → Nat → Bytes → Bytes

/-- effects on the world: the number of key pairs generated so far and the requests sent to Fulcio -/
structure World where
  keys : Nat
  posts : List Csr
deriving DecidableEq, Repr

/-- `SigningContext` (`sign.py:277-302`); the clients' behaviour is in `Answers` -/
structure Context where
  root : TrustedRoot Cert
  rekor : ApiVersion

/-- everything a call sees from outside -/
structure Answers where
  now : Time
  /-- `identity_token.in_validity_period()` -/
  tokenValid : Bool
  fulcio : Csr → Py (Cert × List Cert)
  /-- the `request_timestamp` of each timestamp client, in order -/
  tsas : List (Bytes → Py Tsr)
  rekor : EntryRequest → Py LogEntry
  nonce : Nat

/-- `Signer` (`sign.py:76-108`): the cached private key and certificate -/
structure Signer where
  cachedKey : Option Nat
  cachedCert : Option Cert
deriving DecidableEq, Repr

/-- `Signer._private_key` (`sign.py:110-116`): without a cached key every access generates a new one -/
def Signer.privateKey (s : Signer) (w : World) : Nat × World :=
  match s.cachedKey with
  | none => (w.keys, { w with keys := w.keys + 1 })
  | some k => (k, w)

/-- `Signer._build_csr` (`sign.py:118-142`) -/
def Signer.buildCsr (kp : KeyPairs) (s : Signer) (w : World) : Csr × World :=
  let (k, w) := s.privateKey w
  ({ pubKey := kp.pub k }, w)

/-- the SCT check with the signing keyring (`sign.py:174-178`) -/
def checkNewCert (env : Env) (ctx : Context) (now : Time) (cert : Cert) (chain : List Cert) : Py Unit :=
  match ctKeyring env.crypto now ctx.root .sign with
  | .error e => .error e
  | .ok kr => verifySct env.crypto cert chain kr

/-- `Signer._signing_cert` (`sign.py:144-182`) -/
def Signer.signingCert (env : Env) (ctx : Context) (kp : KeyPairs) (a : Answers) (s : Signer) (w : World) :
    Py Cert × World :=
  match s.cachedCert with
  | some cert => (if a.now > cert.notAfter then .error .expiredCertificate else .ok cert, w)
  | none =>
    if !a.tokenValid then (.error .expiredIdentity, w)
    else
      let (csr, w) := s.buildCsr kp w
      let w := { w with posts := w.posts ++ [csr] }
      match a.fulcio csr with
      | .error e => (.error e, w)
      | .ok (cert, chain) =>
        match checkNewCert env ctx a.now cert chain with
        | .error e => (.error e, w)
        | .ok () => (.ok cert, w)

/-- `Signer.__init__` (`sign.py:81-108`) -/
def Signer.init (env : Env) (ctx : Context) (kp : KeyPairs) (a : Answers) (cache : Bool) (w : World) :
    Py Signer × World :=
  if cache then
    let k := w.keys
    let w := { w with keys := w.keys + 1 }
    match Signer.signingCert env ctx kp a { cachedKey := some k, cachedCert := none } w with
    | (.error e, w) => (.error e, w)
    | (.ok cert, w) => (.ok { cachedKey := some k, cachedCert := some cert }, w)
  else (.ok { cachedKey := none, cachedCert := none }, w)

/-- the loop over the timestamp clients (`sign.py:193-201`): `TimestampError`s are logged and skipped -/
def collectTimestamps (signature : Bytes) : List (Bytes → Py Tsr) → Py (List Tsr)
  | [] => .ok []
  | tsa :: rest =>
    match tsa signature with
    | .error e => if e = .timestamp then collectTimestamps signature rest else .error e
    | .ok t =>
      match collectTimestamps signature rest with
      | .error e => .error e
      | .ok ts => .ok (t :: ts)

/-- `Signer._finalize_sign` (`sign.py:184-209`) -/
def finalizeSign (env : Env) (a : Answers) (cert : Cert) (content : Content) (signature : Bytes)
    (request : EntryRequest) : Py Bundle :=
  match collectTimestamps signature a.tsas with
  | .error e => .error e
  | .ok ts =>
    match a.rekor request with
    | .error e => .error e
    | .ok entry => Bundle.fromParts env cert (some content) entry (some ts)

/-- `key.sign(digest, ec.ECDSA(hashed._as_prehashed()))` (`sign.py:257-259`): `_as_prehashed` fails for other
algorithms, a digest of the wrong size is a `ValueError` -/
def signPrehashed (kp : KeyPairs) (k nonce : Nat) (h : Hashed) : Py Bytes :=
  if h.algorithm = .sha2_256 then
    if h.digest.length = 32 then .ok (kp.sign k nonce h.digest) else .error .valueError
  else .error .error

/-- `Signer.sign_artifact` (`sign.py:234-274`) -/
def Signer.signArtifact (env : Env) (ctx : Context) (kp : KeyPairs) (a : Answers) (s : Signer) (input : HashInput)
    (w : World) : Py Bundle × World :=
  match s.signingCert env ctx kp a w with
  | (.error e, w) => (.error e, w)
  | (.ok cert, w) =>
    let h := sha256Digest env.crypto input
    let (k, w) := s.privateKey w
    match signPrehashed kp k a.nonce h with
    | .error e => (.error e, w)
    | .ok signature =>
      match hashedRekordRequest ctx.rekor h signature cert with
      | .error e => (.error e, w)
      | .ok request =>
        (finalizeSign env a cert (.message { digest := some h.digest, signature := signature }) signature request, w)

/-- `Signer.sign_dsse` (`sign.py:211-232`); `dsse._sign` signs the SHA-256 of the pre-authentication encoding -/
def Signer.signDsse (env : Env) (ctx : Context) (kp : KeyPairs) (a : Answers) (s : Signer) (stmt : Statement)
    (w : World) : Py Bundle × World :=
  match s.signingCert env ctx kp a w with
  | (.error e, w) => (.error e, w)
  | (.ok cert, w) =>
    let (k, w) := s.privateKey w
    match dsseSign (fun data => kp.sign k a.nonce (env.crypto.sha256 data)) stmt with
    | .error e => (.error e, w)
    | .ok envelope =>
      match dsseRequest env.crypto ctx.rekor envelope cert with
      | .error e => (.error e, w)
      | .ok request =>
        match envelopeInit envelope with
        | .error e => (.error e, w)
        | .ok signature => (finalizeSign env a cert (.envelope envelope) signature request, w)

/-- a call of one of the two signing methods -/
inductive Call where
  | artifact (input : HashInput)
  | dsse (stmt : Statement)

/-- `signer.sign_artifact(...)` or `signer.sign_dsse(...)` -/
def Signer.sign (env : Env) (ctx : Context) (kp : KeyPairs) (a : Answers) (s : Signer) (w : World) :
    Call → Py Bundle × World
  | .artifact input => s.signArtifact env ctx kp a input w
  | .dsse stmt => s.signDsse env ctx kp a stmt w

/-- a sequence of calls on one `Signer`, each with its own answers; the results and the final world.  (Signing does
not change the `Signer`.) -/
def Signer.run (env : Env) (ctx : Context) (kp : KeyPairs) (s : Signer) (w : World) :
    List (Answers × Call) → List (Py Bundle) × World
  | [] => ([], w)
  | (a, call) :: rest =>
    match s.sign env ctx kp a w call with
    | (r, w) =>
      match s.run env ctx kp w rest with
      | (rs, w) => (r :: rs, w)

end Sigstore.Signing
