import Verif.Model.Traffic

/-!
# Which exceptions signing raises

The documentation of `Signer.sign_artifact` and `sign_dsse` names none.
-/

namespace Sigstore.Spec

open Sigstore.Traffic

/-- raised when a certificate is requested, besides what `requests` raises -/
def certRaises : List Exc :=
  [.expiredIdentity, .fulcioClient, .metadata, .verification, .valueError, .typeError, .attributeError, .keyError, .indexError,
   .structError]

/-- raised when a statement is signed with a certificate that is there, besides what `requests` raises -/
def dsseRaises : List Exc :=
  [.expiredCertificate, .rekorClient, .valueError, .attributeError, .keyError, .typeError, .binasciiError, .pydantic, .invalidBundle,
   .incompatibleEntry]

/-- raised when an artifact is signed with a certificate that is there, besides what `requests` raises: `Error` is for digests of other
algorithms than SHA-256 -/
def artifactRaises : List Exc := .error :: dsseRaises

/-- nothing but what `requests` raises comes out of `session.post` -/
def RequestsOnly (srv : Services) : Prop := ∀ sent r e, srv sent r = .error e → e.isRequestException = true

/-- signatures are not empty, and timestamp responses that were decoded once decode again -/
structure SaneLibs (ctx : Context) : Prop where
  signature : ∀ k nonce digest, ctx.keys.sign k nonce digest ≠ []
  timestamp : ∀ b t, ctx.libs.decodeTsr b = some t → ctx.env.decodeTsr t.raw ≠ none

end Sigstore.Spec
