import Verif.Model.Traffic
import Verif.Spec.Url
import Verif.Spec.Verification
import Verif.Spec.Http

/-!
# Specification: what a signing session sends, and where
-/

namespace Sigstore.Spec

open Sigstore.Trust Sigstore.Traffic Sigstore.Rekor Sigstore.Signing Sigstore.Http Sigstore.Sct Sigstore.Props
open Sigstore.Config (RekorHandle)

/-- where a log takes entries, for either version of its API -/
def entriesEndpoint : RekorHandle → Str
  | .v1 url => url ++ "/api/v1/log/entries".toList
  | .v2 url => url ++ "/api/v2/log/entries".toList

/-- the request has headers of these names, no others, and a body of this media type -/
def Carries (names : List Str) (mediaType : Str) (r : Request) : Prop :=
  r.headers.length = names.length ∧ (∀ x, x ∈ r.headers.map Prod.fst ↔ x ∈ names) ∧
    ∀ v, ("Content-Type".toList, v) ∈ r.headers ↔ v = mediaType

/-- a request for a certificate -/
def CertificateRequest (endpoint : Str) (r : Request) : Prop :=
  r.url = endpoint ∧ ∃ csr, r.payload = .csr csr ∧
    Carries ["Authorization".toList, "Content-Type".toList, "Accept".toList, "User-Agent".toList] "application/json".toList r

/-- what a timestamp query carries -/
def QueryHeaders (r : Request) : Prop :=
  Carries ["Content-Type".toList, "User-Agent".toList] "application/timestamp-query".toList r

/-- a timestamp query -/
def TimestampQuery (tsas : List Str) (r : Request) : Prop := r.url ∈ tsas ∧ ∃ der, r.payload = .query der ∧ QueryHeaders r

/-- what a submission carries -/
def EntryHeaders (r : Request) : Prop :=
  Carries ["Content-Type".toList, "Accept".toList, "User-Agent".toList] "application/json".toList r

/-- a submission of a log entry -/
def Submission (rekor : RekorHandle) (r : Request) : Prop :=
  r.url = entriesEndpoint rekor ∧ ∃ e, r.payload = .entry e ∧ EntryHeaders r

/-- two requests to `endpoint` that differ in the bearer token only -/
def DifferInToken (endpoint token token' : Str) (r r' : Request) : Prop :=
  r.url = endpoint ∧ r'.url = endpoint ∧ r.payload = r'.payload ∧
    ∃ before after, r.headers = before ++ ("Authorization".toList, "Bearer ".toList ++ token) :: after ∧
      r'.headers = before ++ ("Authorization".toList, "Bearer ".toList ++ token') :: after

/-- the same request, except for the token if it is to `endpoint` -/
def SameButToken (endpoint token token' : Str) (r r' : Request) : Prop := r = r' ∨ DifferInToken endpoint token token' r r'

/-- services whose answers do not depend on which of the two tokens was sent to `endpoint` -/
def SameAnswers (endpoint token token' : Str) (srv srv' : Services) : Prop :=
  ∀ h h' r r', List.Forall₂ (SameButToken endpoint token token') h h' → SameButToken endpoint token token' r r' →
    srv h r = srv' h' r'

/-- the keys that are valid now -/
def currentKeys (now : Time) (ms : List PublicKeyMsg) : List PublicKeyMsg :=
  ms.filter fun m =>
    match m.validFor with
    | none => true
    | some r => decide (r.start ≤ now) && (match r.stop with | none => true | some e => decide (now ≤ e))

/-- the certificate embeds exactly one SCT, made with SHA-256, whose signature over the RFC 6962 structure for this
certificate and `chain` is accepted by the CT logs' keys that are valid now (see C26, C27) -/
def SctCurrent (c : Crypto) (now : Time) (root : TrustedRoot Cert) (cert : Cert) (chain : List Cert) : Prop :=
  currentKeys now root.ctlogs ≠ [] ∧
  ∃ sct ik entry, cert.scts = some [sct] ∧ sct.hashAlgorithm = some .sha256 ∧ BoundTo c sct chain ik ∧
    EntryFor sct cert ik entry ∧ entry.Valid ∧ sct.timestamp ≤ lastMillisecond ∧
    sct.extensionBytes.length < 2 ^ 16 ∧
    KeysAccept c (currentKeys now root.ctlogs) sct.logId
      (DigitallySigned.encode ⟨sct.version, sctMillis sct.timestamp, entry, sct.extensionBytes⟩) sct.signature

/-- The service answered the request with this certificate and the chain: the response has no error status, and the
certificates in it load. -/
def IssuedBy (libs : Traffic.Libs) (answer : Py Response) (cert : Cert) (chain : List Cert) : Prop :=
  ∃ r j p ps, answer = .ok r ∧ ¬ ErrorStatus r.status ∧ r.json? = some j ∧ HasChain j (p :: ps) ∧ chain ≠ [] ∧
    libs.loadPem (utf8 p) = some cert ∧ ps.map (fun t => libs.loadPem (utf8 t)) = chain.map some

/-- the certificate in a request for an entry, as DER or as PEM -/
def NamesCertificate (cert : Cert) : EntryRequest → Prop
  | .hashedrekord spec => spec.publicKey = some (b64Encode (utf8 (pemText cert.der)))
  | .dsse _ verifiers => verifiers = [b64Encode (utf8 (pemText cert.der))]
  | .hashedRekordV002 _ _ verifier _ => verifier = .x509 cert.der

/-- A certificate that may be used now: a cached one that has not expired, or the one that Fulcio issued in reply to the
request `cs` – the token being valid – and whose SCT has been verified. -/
def CheckedCertificate (ctx : Traffic.Context) (now : Time) (tokenValid : Bool) (s : Signer) (srv : Services)
    (sent cs : List Request) (cert : Cert) : Prop :=
  (s.cachedCert = some cert ∧ now ≤ cert.notAfter) ∨
  (s.cachedCert = none ∧ tokenValid = true ∧ ∃ c chain, cs = [c] ∧ IssuedBy ctx.libs (srv sent c) cert chain ∧
    SctCurrent ctx.env.crypto now ctx.root cert chain)

/-- one of the three kinds of requests, to the service it is for -/
def Expected (ctx : Traffic.Context) (endpoint : Str) (r : Request) : Prop :=
  CertificateRequest endpoint r ∨ TimestampQuery ctx.services.tsas r ∨ Submission ctx.services.rekor r

/-- the number of requests for certificates -/
def certificateRequests (rs : List Request) : Nat := rs.countP fun r => match r.payload with | .csr _ => true | _ => false

/-- the number of entries submitted -/
def submissions (rs : List Request) : Nat := rs.countP fun r => match r.payload with | .entry _ => true | _ => false

end Sigstore.Spec
