import Verif.Model.Verifier

/-!
# Model of the Rekor request builders
(`/repo/sigstore/_internal/rekor/client.py:276-328`, `/repo/sigstore/_internal/rekor/client_v2.py:105-168`)
-/

namespace Sigstore.Rekor

open Sigstore.Trust Sigstore.Dsse

/-- `EntryRequestBody` (`/repo/sigstore/_internal/rekor/__init__.py:40`): the JSON documents the builders produce.
Simplification: a `dsse` request carries the envelope itself, not its JSON text. -/
inductive EntryRequest where
  | hashedrekord (spec : HashedrekordBody)
  | dsse (envelope : EnvelopeMsg) (verifiers : List Str)
  | hashedRekordV002 (digest signature : Bytes) (verifier : V2VerifierKey) (keyDetails : KeyDetails)
deriving DecidableEq, Repr

/-- the two implementations of `RekorLogSubmitter` -/
inductive ApiVersion where
  | v1 | v2
deriving DecidableEq, Repr

/-- `RekorClient._build_hashed_rekord_request` (`client.py:276-302`) -/
def hashedRekordRequestV1 (h : Hashed) (signature : Bytes) (cert : Cert) : Py EntryRequest :=
  if h.algorithm = .sha2_256 then
    .ok (.hashedrekord
      { apiVersion := "0.0.1".toList, content := some (b64Encode signature),
        publicKey := some (b64Encode (utf8 (pemText cert.der))), hash := some ("sha256".toList, hexEncode h.digest) })
  else .error .error

/-- `RekorClient._build_dsse_request` (`client.py:304-328`) -/
def dsseRequestV1 (e : EnvelopeMsg) (cert : Cert) : Py EntryRequest :=
  .ok (.dsse e [b64Encode (utf8 (pemText cert.der))])

/-- `RekorV2Client._build_hashed_rekord_request` (`client_v2.py:105-133`) -/
def hashedRekordRequestV2 (h : Hashed) (signature : Bytes) (cert : Cert) : Py EntryRequest :=
  match getKeyDetails cert with
  | .error e => .error e
  | .ok kd => .ok (.hashedRekordV002 h.digest signature (.x509 cert.der) kd)

/-- `RekorV2Client._build_dsse_request` (`client_v2.py:135-168`) -/
def dsseRequestV2 (c : Crypto) (e : EnvelopeMsg) (cert : Cert) : Py EntryRequest :=
  match getKeyDetails cert with
  | .error x => .error x
  | .ok kd =>
    match getPrehash kd with
    | .error x => .error x
    | .ok (_, hashFunc) =>
      match envelopeInit e with
      | .error x => .error x
      | .ok signature =>
        .ok (.hashedRekordV002 (c.hash hashFunc (pae e.payloadType e.payload)) signature (.x509 cert.der) kd)

/-- `rekor._build_hashed_rekord_request` for either client -/
def hashedRekordRequest : ApiVersion → Hashed → Bytes → Cert → Py EntryRequest
  | .v1 => hashedRekordRequestV1
  | .v2 => hashedRekordRequestV2

/-- `rekor._build_dsse_request` for either client -/
def dsseRequest (c : Crypto) : ApiVersion → EnvelopeMsg → Cert → Py EntryRequest
  | .v1 => dsseRequestV1
  | .v2 => dsseRequestV2 c

end Sigstore.Rekor
