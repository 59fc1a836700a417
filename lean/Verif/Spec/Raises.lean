import Verif.Prelude.Basic

/-!
# Which exceptions verification raises

The documentation of `Verifier.verify_artifact` and `verify_dsse` names `VerificationError` only.  These are the lists of
what else a caller has to expect.
-/

namespace Sigstore.Spec

/-- raised before the signature is looked at, by both methods -/
def commonRaises : List Exc :=
  [.verification, .certValidation, .valueError, .binasciiError, .canonicalization, .osError, .overflowError, .error,
   .attributeError, .invalidEnvelope, .metadata, .structError, .indexError, .extensionNotFound]

/-- raised by `verify_artifact`, and also by `verify_dsse` -/
def verifyRaises : List Exc := commonRaises ++ [.typeError, .pydantic]

/-- raised by policies: the classes of `sigstore.verify.policy` and their combinations -/
def policyRaises : List Exc := [.verification, .valueError, .unicodeDecode, .extensionNotFound]

end Sigstore.Spec
