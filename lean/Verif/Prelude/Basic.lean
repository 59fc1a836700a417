/-!
# Basic vocabulary of the model

Byte strings, text and Python exceptions.  Nothing here is specific to one source file.
-/

namespace Sigstore

/-- Python `bytes`. -/
abbrev Bytes := List UInt8

/-- Python `str`, as the sequence of its code points.
Simplification: lone surrogates (which cannot be UTF-8 encoded) are not representable. -/
abbrev Str := List Char

/-- Instants, in an arbitrary but fixed unit (the code only compares them). -/
notation "Time" => Int

/-- The exception classes that the modelled code raises or lets through.
Sigstore's own classes: `/repo/sigstore/errors.py:25-136`, `/repo/sigstore/models.py:307-345`,
`/repo/sigstore/dsse/__init__.py:187-190`, `/repo/sigstore/oidc.py:60,226,369`,
`/repo/sigstore/_internal/rekor/__init__.py:43-61`,
`/repo/sigstore/_internal/fulcio/client.py:46-70`, `/repo/sigstore/_internal/timestamp.py:56`.
Simplification: message texts are dropped. -/
inductive Exc where
  /-- `sigstore.errors.Error` raised directly -/
  | error
  /-- `sigstore.errors.VerificationError` -/
  | verification
  /-- `sigstore.errors.CertValidationError`, a subclass of `VerificationError` -/
  | certValidation
  /-- `sigstore.errors.NetworkError` -/
  | network
  /-- `sigstore.errors.TUFError` -/
  | tuf
  /-- `sigstore.errors.MetadataError` -/
  | metadata
  /-- `sigstore.errors.RootError` -/
  | root
  /-- `sigstore.models.InvalidBundle` -/
  | invalidBundle
  /-- `sigstore.models.IncompatibleEntry`, a subclass of `InvalidBundle` -/
  | incompatibleEntry
  /-- `sigstore.dsse.InvalidEnvelope` -/
  | invalidEnvelope
  /-- `sigstore.oidc.IdentityError` -/
  | identity
  /-- `id.IdentityError`, which `_internal/oidc/oauth.py:32` imports under the same name (an `Exception`, not a sigstore
  `Error`) -/
  | idIdentity
  /-- `sigstore.oidc.ExpiredIdentity` (an `Exception`, not a sigstore `Error`) -/
  | expiredIdentity
  /-- `sigstore.oidc.IssuerError` (an `Exception`, not a sigstore `Error`) -/
  | issuer
  /-- `sigstore._internal.fulcio.ExpiredCertificate` -/
  | expiredCertificate
  /-- `sigstore._internal.fulcio.FulcioClientError` -/
  | fulcioClient
  /-- `sigstore._internal.rekor.RekorClientError` -/
  | rekorClient
  /-- `sigstore._internal.timestamp.TimestampError` -/
  | timestamp
  /-- Python `ValueError` -/
  | valueError
  /-- `binascii.Error`, a subclass of `ValueError` -/
  | binasciiError
  /-- `UnicodeDecodeError`, a subclass of `ValueError` -/
  | unicodeDecode
  /-- `pydantic.ValidationError`, a subclass of `ValueError` -/
  | pydantic
  /-- `rfc8785.CanonicalizationError`, a subclass of `ValueError` -/
  | canonicalization
  /-- `cryptography.x509.ExtensionNotFound` -/
  | extensionNotFound
  /-- Python `TypeError` -/
  | typeError
  /-- Python `KeyError` -/
  | keyError
  /-- Python `IndexError` -/
  | indexError
  /-- Python `AttributeError` -/
  | attributeError
  /-- Python `AssertionError` -/
  | assertionError
  /-- Python `OverflowError` -/
  | overflowError
  /-- Python `OSError` (file system) -/
  | osError
  /-- `struct.error` -/
  | structError
  /-- `cryptography.exceptions.InvalidSignature` -/
  | invalidSignature
  /-- `cryptography.exceptions.UnsupportedAlgorithm` -/
  | unsupportedAlgorithm
  /-- `requests.ConnectionError` (and its subclasses other than `ConnectTimeout`) -/
  | requestsConnection
  /-- `requests.Timeout` and its subclasses -/
  | requestsTimeout
  /-- `requests.HTTPError`, raised by `raise_for_status` -/
  | requestsHttp
  /-- `requests.JSONDecodeError`, a subclass of `ValueError` as well -/
  | requestsJson
  /-- any other `requests.RequestException`, such as `TooManyRedirects` -/
  | requestsOther
  /-- `SystemExit` with the given status (`sys.exit`, argparse errors) -/
  | systemExit (status : Nat)
  /-- any other exception, identified by a number -/
  | other (tag : Nat)
deriving DecidableEq, Repr

deriving instance DecidableEq for Except

/-- A Python computation that either returns or raises. -/
abbrev Py (α : Type) := Except Exc α

/-- `isinstance(e, sigstore.errors.VerificationError)` (`/repo/sigstore/errors.py:125-136`). -/
def Exc.isVerificationError : Exc → Bool
  | .verification | .certValidation => true
  | _ => false

/-- `isinstance(e, ValueError)`. -/
def Exc.isValueError : Exc → Bool
  | .valueError | .binasciiError | .unicodeDecode | .pydantic | .canonicalization | .requestsJson => true
  | _ => false

/-- `isinstance(e, sigstore.errors.Error)` (`/repo/sigstore/errors.py:25`). -/
def Exc.isSigstoreError : Exc → Bool
  | .error | .verification | .certValidation | .network | .tuf | .metadata | .root
  | .invalidBundle | .incompatibleEntry | .invalidEnvelope | .identity => true
  | _ => false

/-- `isinstance(e, sigstore.models.InvalidBundle)` (`/repo/sigstore/models.py:307-345`). -/
def Exc.isInvalidBundle : Exc → Bool
  | .invalidBundle | .incompatibleEntry => true
  | _ => false

/-- `isinstance(e, requests.RequestException)` -/
def Exc.isRequestException : Exc → Bool
  | .requestsConnection | .requestsTimeout | .requestsHttp | .requestsJson | .requestsOther => true
  | _ => false

/-- "returns normally or raises a `VerificationError`" -/
def Py.Clean {α : Type} (r : Py α) : Prop :=
  ∀ e, r = .error e → e.isVerificationError = true

end Sigstore
