import Verif.Prelude.Json
import Mathlib.Algebra.Order.Ring.Unbundled.Rat

/-!
# Model of `IdentityToken` (`/repo/sigstore/oidc.py:37-223`)
-/

namespace Sigstore.Oidc

/-- The claims of a token, a JSON object. -/
abbrev Claims := Dict Str Json

/-- a value usable in a comparison with a `float`; others raise `TypeError` -/
def _root_.Sigstore.Json.numeric : Json → Option ℚ
  | .num q => some q
  | .bool true => some 1
  | .bool false => some 0
  | _ => none

/-- `_KNOWN_OIDC_ISSUERS` (`oidc.py:38-43`) -/
def knownIssuers : Dict Str Str :=
  [("https://accounts.google.com".toList, "email".toList),
   ("https://oauth2.sigstore.dev/auth".toList, "email".toList),
   ("https://oauth2.sigstage.dev/auth".toList, "email".toList),
   ("https://token.actions.githubusercontent.com".toList, "sub".toList)]

/-- `_KNOWN_OIDC_ISSUERS.get(issuer)`: lists and dictionaries are not hashable; of the other values only strings can be
keys -/
def lookupIssuer : Json → Py (Option Str)
  | .arr _ => .error .typeError
  | .obj _ => .error .typeError
  | .str s => .ok (knownIssuers.get? s)
  | _ => .ok none

/-- `IdentityToken` (`oidc.py:64-223`).  `nbf = .null` is Python's `None`. -/
structure IdentityToken where
  raw : Str
  iss : Json
  nbf : Json
  exp : Json
  identity : Str
  federatedIssuer : Option Str

/-- `a <= b` where `b` is a float -/
def pyLe (a : Json) (now : ℚ) : Py Bool :=
  match a.numeric with
  | none => .error .typeError
  | some q => .ok (decide (q ≤ now))

/-- `b < a` where `b` is a float -/
def pyGt (now : ℚ) (a : Json) : Py Bool :=
  match a.numeric with
  | none => .error .typeError
  | some q => .ok (decide (now < q))

/-- `IdentityToken.in_validity_period` (`oidc.py:160-174`) at clock reading `now`, in seconds -/
def inValidityPeriod (now : ℚ) (nbf exp : Json) : Py Bool :=
  match nbf with
  | .null => pyGt now exp
  | nbf =>
    match pyLe nbf now with
    | .error e => .error e
    | .ok false => .ok false
    | .ok true => pyGt now exp

/-- What the module takes from outside: `jwt.decode` with the options of `oidc.py:81-103` (`none` if it raises), at a
clock reading; and `str(x)` of a JSON value that is no string. -/
structure Libs where
  decode : ℚ → Str → Str → Option Claims
  repr : Json → Str

/-- `str(x)` -/
def Libs.str (libs : Libs) : Json → Str
  | .str s => s
  | .null => "None".toList
  | j => libs.repr j

/-- `claims.get(k)` -/
def getOrNull (c : Claims) (k : Str) : Json := (c.get? k).getD .null

/-- the identity claim (`oidc.py:113-131`) -/
def identityOf (libs : Libs) (claims : Claims) (iss : Json) : Py Str :=
  match lookupIssuer iss with
  | .error e => .error e
  | .ok (some claim) =>
    match claims.get? claim with
    | none => .error .identity
    | some v => .ok (libs.str v)
  | .ok none =>
    match claims.get? "sub".toList with
    | none => .error .identity
    | some v => .ok (libs.str v)

/-- the federated issuer (`oidc.py:133-158`) -/
def federatedIssuerOf (claims : Claims) : Py (Option Str) :=
  match getOrNull claims "federated_claims".toList with
  | .null => .ok none
  | .obj fields =>
    match getOrNull fields "connector_id".toList with
    | .null => .ok none
    | .str s => .ok (some s)
    | _ => .error .identity
  | _ => .error .identity

/-- `IdentityToken.__init__` (`oidc.py:70-158`) -/
def IdentityToken.init (libs : Libs) (now : ℚ) (raw clientId : Str) : Py IdentityToken :=
  match libs.decode now raw clientId with
  | none => .error .identity
  | some claims =>
    match claims.get? "iss".toList with
    | none => .error .keyError
    | some iss =>
      let nbf := getOrNull claims "nbf".toList
      match claims.get? "exp".toList with
      | none => .error .keyError
      | some exp =>
        match inValidityPeriod now nbf exp with
        | .error e => .error e
        | .ok false => .error .identity
        | .ok true =>
          match identityOf libs claims iss with
          | .error e => .error e
          | .ok identity =>
            match federatedIssuerOf claims with
            | .error e => .error e
            | .ok fed => .ok ⟨raw, iss, nbf, exp, identity, fed⟩

/-- `IdentityToken.in_validity_period` on a constructed token -/
def IdentityToken.inValidityPeriod (t : IdentityToken) (now : ℚ) : Py Bool := Oidc.inValidityPeriod now t.nbf t.exp

/-- `IdentityToken.federated_issuer` (`oidc.py:195-215`) -/
def IdentityToken.federated (t : IdentityToken) : Json :=
  match t.federatedIssuer with
  | some s => .str s
  | none => t.iss

end Sigstore.Oidc
