import Verif.Model.Cert

/-!
# Model of `/repo/sigstore/verify/policy.py`
-/

namespace Sigstore.Policy

/-- Fulcio's arc `1.3.6.1.4.1.57264.1` -/
def fulcioArc (n : Nat) : Oid := [1, 3, 6, 1, 4, 1, 57264, 1, n]

/-- The single-extension policy classes (`policy.py:141-331`). -/
inductive ExtClass where
  | oidcIssuer
  | githubWorkflowTrigger
  | githubWorkflowSha
  | githubWorkflowName
  | githubWorkflowRepository
  | githubWorkflowRef
  | oidcIssuerV2
  | oidcBuildSignerUri
  | oidcBuildSignerDigest
  | oidcRunnerEnvironment
  | oidcSourceRepositoryUri
  | oidcSourceRepositoryDigest
  | oidcSourceRepositoryRef
  | oidcSourceRepositoryIdentifier
  | oidcSourceRepositoryOwnerUri
  | oidcSourceRepositoryOwnerIdentifier
  | oidcBuildConfigUri
  | oidcBuildConfigDigest
  | oidcBuildTrigger
  | oidcRunInvocationUri
  | oidcSourceRepositoryVisibility
deriving DecidableEq, Repr

/-- the `oid` class attributes (`policy.py:42-65` and the class bodies) -/
def ExtClass.oid : ExtClass → Oid
  | .oidcIssuer => fulcioArc 1
  | .githubWorkflowTrigger => fulcioArc 2
  | .githubWorkflowSha => fulcioArc 3
  | .githubWorkflowName => fulcioArc 4
  | .githubWorkflowRepository => fulcioArc 5
  | .githubWorkflowRef => fulcioArc 6
  | .oidcIssuerV2 => fulcioArc 8
  | .oidcBuildSignerUri => fulcioArc 9
  | .oidcBuildSignerDigest => fulcioArc 10
  | .oidcRunnerEnvironment => fulcioArc 11
  | .oidcSourceRepositoryUri => fulcioArc 12
  | .oidcSourceRepositoryDigest => fulcioArc 13
  | .oidcSourceRepositoryRef => fulcioArc 14
  | .oidcSourceRepositoryIdentifier => fulcioArc 15
  | .oidcSourceRepositoryOwnerUri => fulcioArc 16
  | .oidcSourceRepositoryOwnerIdentifier => fulcioArc 17
  | .oidcBuildConfigUri => fulcioArc 18
  | .oidcBuildConfigDigest => fulcioArc 19
  | .oidcBuildTrigger => fulcioArc 20
  | .oidcRunInvocationUri => fulcioArc 21
  | .oidcSourceRepositoryVisibility => fulcioArc 22

/-- whether the class derives from `_SingleX509ExtPolicyV2` (`policy.py:141-331`) -/
def ExtClass.isV2 : ExtClass → Bool
  | .oidcIssuer | .githubWorkflowTrigger | .githubWorkflowSha | .githubWorkflowName
  | .githubWorkflowRepository | .githubWorkflowRef => false
  | _ => true

/-- `_OTHERNAME_OID` (`policy.py:48`) -/
def otherNameOid : Oid := fulcioArc 7

/-- `_SingleX509ExtPolicy.verify` (`policy.py:86-107`) and `_SingleX509ExtPolicyV2.verify`
(`policy.py:117-138`). -/
def verifyExt (cls : ExtClass) (value : Str) (cert : Cert) : Py Unit :=
  match cert.ext? cls.oid with
  | none => .error .verification
  | some raw =>
    if cls.isV2 then
      match derDecodeUtf8String raw with
      | none => .error .valueError
      | some s => if s ≠ value then .error .verification else .ok ()
    else
      match utf8Decode raw with
      | none => .error .unicodeDecode
      | some s => if s ≠ value then .error .verification else .ok ()

/-- `[on.value.decode() for on in ... if on.type_id == _OTHERNAME_OID]` (`policy.py:465-471`) -/
def otherNames : List GeneralName → Py (List Str)
  | [] => .ok []
  | .otherName oid v :: rest =>
    if oid = otherNameOid then
      match utf8Decode v with
      | none => .error .unicodeDecode
      | some s => match otherNames rest with
        | .error e => .error e
        | .ok l => .ok (s :: l)
    else otherNames rest
  | _ :: rest => otherNames rest

/-- `get_values_for_type(RFC822Name)` -/
def rfc822Names (l : List GeneralName) : List Str :=
  l.filterMap fun g => match g with | .rfc822 s => some s | _ => none

/-- `get_values_for_type(UniformResourceIdentifier)` -/
def uriNames (l : List GeneralName) : List Str :=
  l.filterMap fun g => match g with | .uri s => some s | _ => none

/-- the issuer check of `Identity` (`policy.py:449-453`, `460-461`): an empty issuer is treated like an
absent one -/
def verifyIssuer (issuer : Option Str) (cert : Cert) : Py Unit :=
  match issuer with
  | none => .ok ()
  | some [] => .ok ()
  | some (a :: as) => verifyExt .oidcIssuer (a :: as) cert

/-- `Identity.verify` (`policy.py:455-479`); `issuer` is the constructor argument. The set of SANs is
kept as a list. -/
def verifyIdentity (identity : Str) (issuer : Option Str) (cert : Cert) : Py Unit :=
  match verifyIssuer issuer cert with
  | .error e => .error e
  | .ok () =>
    match cert.san with
    | none => .error .extensionNotFound
    | some names =>
      match otherNames names with
      | .error e => .error e
      | .ok others =>
        if identity ∈ rfc822Names names ++ uriNames names ++ others then .ok () else .error .verification

/-- Verification policies.  `custom` is any user-defined class that follows the `VerificationPolicy`
protocol (`policy.py:334-346`). -/
inductive Policy where
  | ext (cls : ExtClass) (value : Str)
  | anyOf (children : List Policy)
  | allOf (children : List Policy)
  | unsafeNoOp
  | identity (identity : Str) (issuer : Option Str)
  | custom (verify : Cert → Py Unit)

mutual

/-- `policy.verify(cert)` for each class (`policy.py:86-479`). -/
def Policy.verify (cert : Cert) : Policy → Py Unit
  | .ext cls value => verifyExt cls value cert
  | .anyOf children => verifyAny cert children
  | .allOf children =>
    if children.length < 1 then .error .verification else verifyAll cert children
  | .unsafeNoOp => .ok ()
  | .identity i iss => verifyIdentity i iss cert
  | .custom f => f cert

/-- the loop of `AnyOf.verify` (`policy.py:369-377`) -/
def verifyAny (cert : Cert) : List Policy → Py Unit
  | [] => .error .verification
  | p :: ps =>
    match Policy.verify cert p with
    | .ok () => .ok ()
    | .error e => if e.isVerificationError then verifyAny cert ps else .error e

/-- the loop of `AllOf.verify` (`policy.py:406-407`) -/
def verifyAll (cert : Cert) : List Policy → Py Unit
  | [] => .ok ()
  | p :: ps =>
    match Policy.verify cert p with
    | .ok () => verifyAll cert ps
    | .error e => .error e

end

end Sigstore.Policy
