import Verif.Model.RekorRequest

/-!
# What an honest Rekor log records for a request

Rekor v1 (`pkg/types/hashedrekord`, `pkg/types/dsse` of sigstore/rekor) and v2
(https://github.com/C2SP/C2SP, sigstore/rekor-tiles `api/proto/rekor/v2`): the body of the entry is derived from the
request only.
-/

namespace Sigstore.Spec

open Sigstore.Rekor Sigstore.Trust Sigstore.LogEntry

/-- the content of an entry body -/
inductive Recorded where
  | hashedrekord (spec : HashedrekordBody)
  | dsse (spec : DsseBody)
  | v2 (entry : V2Entry)

/-- the hash algorithm that goes with an algorithm identifier (sigstore algorithm registry) -/
inductive HashFor : KeyDetails → HashAlgorithm → Prop
  | rsa2048 : HashFor .pkixRsaPkcs1v15_2048Sha256 .sha2_256
  | rsa3072 : HashFor .pkixRsaPkcs1v15_3072Sha256 .sha2_256
  | rsa4096 : HashFor .pkixRsaPkcs1v15_4096Sha256 .sha2_256
  | p256 : HashFor .pkixEcdsaP256Sha256 .sha2_256
  | p384 : HashFor .pkixEcdsaP384Sha384 .sha2_384
  | p521 : HashFor .pkixEcdsaP521Sha512 .sha2_512

/-- The body an honest log derives from a request.  A v1 `hashedrekord` entry records the request; a v1 `dsse` entry
records the hash of the payload and each signature with the verifier; a v2 entry records the digest, signature and
verifier together with the hash algorithm of the verifier's key. -/
inductive Records (c : Crypto) : EntryRequest → Recorded → Prop
  | hashedrekord (spec) : Records c (.hashedrekord spec) (.hashedrekord spec)
  | dsse (e verifier) : Records c (.dsse e [verifier])
      (.dsse ⟨some ("sha256".toList, hexEncode (c.sha256 e.payload)),
        some (e.signatures.map fun s => (b64Encode s, verifier))⟩)
  | v2 (digest sig verifier kd alg) (h : HashFor kd alg) : Records c (.hashedRekordV002 digest sig verifier kd)
      (.v2 ⟨"hashedrekord".toList, "0.0.2".toList, some ⟨alg, digest, sig, verifier, kd⟩⟩)

/-- A log entry holds this body: kind, version and parsed body agree. -/
def Holds (env : Env) (entry : LogEntry) : Recorded → Prop
  | .hashedrekord spec => entry.kind = "hashedrekord".toList ∧ entry.version = "0.0.1".toList ∧
      env.parseHashedrekord entry.body = some spec
  | .dsse spec => entry.kind = "dsse".toList ∧ entry.version = "0.0.1".toList ∧ env.parseDsse entry.body = some spec
  | .v2 e => entry.kind = e.kind ∧ entry.version = e.apiVersion ∧ env.parseV2 entry.body = some e

/-- the entry version of an API version -/
def versionOf : ApiVersion → Str
  | .v1 => "0.0.1".toList
  | .v2 => "0.0.2".toList

end Sigstore.Spec
