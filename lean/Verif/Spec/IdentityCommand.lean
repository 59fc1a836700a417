import Verif.Spec.CliSign
import Verif.Model.CliMain

/-!
# Specification of `get-identity-token` and `update-trust-root`
-/

namespace Sigstore.Spec

open Sigstore.Cli Sigstore.Trust

/-- How tokens are made (`oidc.py:70-158,366`): an `IdentityToken` keeps the text it is made from, and the OAuth flow makes one
from the text that the token endpoint returns, with the same client id.  (An empty text is not accepted.) -/
structure MakesTokens (libs : IdentityLibs) : Prop where
  keeps : ∀ text clientId t, libs.token text clientId = .ok t → t.raw = text ∧ text ≠ []
  flow : ∀ url clientId secret oob t, libs.interactive url clientId secret oob = .ok t → libs.token t.raw clientId = .ok t

/-- a trusted root that can be used for verification at some time: every authority has certificates, and one has begun -/
def Usable (now : Time) (root : TrustedRoot Cert) : Prop :=
  (∀ ca ∈ root.certificateAuthorities, ca.certificates ≠ []) ∧
    ∃ ca ∈ root.certificateAuthorities, ∀ r, ca.validFor = some r → r.start ≤ now

end Sigstore.Spec
