import Verif.Model.Oidc

/-!
# What identity tokens should be
-/

namespace Sigstore.Spec

open Sigstore.Oidc

/-- `now` is at or after `nbf` (if there is one) and before `exp` -/
def InWindow (now : ℚ) (nbf exp : Json) : Prop :=
  (∃ e, exp.numeric = some e ∧ now < e) ∧
  (nbf = .null ∨ ∃ n, nbf.numeric = some n ∧ n ≤ now)

/-- the claim that identifies users of an issuer: `email` for three issuers, `sub` otherwise -/
def IdentityClaim (iss : Json) (claim : Str) : Prop :=
  (claim = "email".toList ∧ ∃ s, iss = .str s ∧ (s = "https://accounts.google.com".toList ∨
    s = "https://oauth2.sigstore.dev/auth".toList ∨ s = "https://oauth2.sigstage.dev/auth".toList)) ∨
  (claim = "sub".toList ∧ ∀ s, iss = .str s → s ≠ "https://accounts.google.com".toList ∧
    s ≠ "https://oauth2.sigstore.dev/auth".toList ∧ s ≠ "https://oauth2.sigstage.dev/auth".toList)

/-- the connector of a federated token -/
inductive Federated (claims : Claims) : Option Str → Prop
  | absent (h : claims.get? "federated_claims".toList = none) : Federated claims none
  | null (h : claims.get? "federated_claims".toList = some .null) : Federated claims none
  | noConnector (fields) (h : claims.get? "federated_claims".toList = some (.obj fields))
      (hc : Dict.get? fields "connector_id".toList = none ∨ Dict.get? fields "connector_id".toList = some .null) :
      Federated claims none
  | connector (fields s) (h : claims.get? "federated_claims".toList = some (.obj fields))
      (hc : Dict.get? fields "connector_id".toList = some (.str s)) : Federated claims (some s)

/-- The contract of `jwt.decode` with the options used: the required claims are present and not null, and the client
is the audience or one of them (PyJWT `_validate_required_claims`, `_validate_aud`). -/
def JwtContract (libs : Libs) : Prop :=
  ∀ now raw client claims, libs.decode now raw client = some claims →
    (∀ k ∈ ["aud".toList, "sub".toList, "iat".toList, "exp".toList, "iss".toList],
      ∃ v, claims.get? k = some v ∧ v ≠ .null) ∧
    (claims.get? "aud".toList = some (.str client) ∨
      ∃ l, claims.get? "aud".toList = some (.arr l) ∧ .str client ∈ l)

end Sigstore.Spec
