import Verif.Model.Policy

/-!
# What certificate identity claims mean

Fulcio's published extension table (https://github.com/sigstore/fulcio/blob/main/docs/oid-info.md) and
the reading of a certificate's claims.
-/

namespace Sigstore.Spec

open Sigstore.Policy

/-- how Fulcio encodes an extension value -/
inductive Encoding where
  /-- the raw UTF-8 bytes -/
  | raw
  /-- a DER `UTF8String` -/
  | der
deriving DecidableEq, Repr

/-- the bytes of a text in an encoding -/
def Encoding.encode : Encoding → Str → Bytes
  | .raw, s => utf8 s
  | .der, s => derUtf8String s

/-- Fulcio's table: last arc of the OID below 1.3.6.1.4.1.57264.1, policy class, encoding -/
def fulcioTable : List (Nat × ExtClass × Encoding) :=
  [(1, .oidcIssuer, .raw), (2, .githubWorkflowTrigger, .raw), (3, .githubWorkflowSha, .raw),
   (4, .githubWorkflowName, .raw), (5, .githubWorkflowRepository, .raw), (6, .githubWorkflowRef, .raw),
   (8, .oidcIssuerV2, .der), (9, .oidcBuildSignerUri, .der), (10, .oidcBuildSignerDigest, .der),
   (11, .oidcRunnerEnvironment, .der), (12, .oidcSourceRepositoryUri, .der),
   (13, .oidcSourceRepositoryDigest, .der), (14, .oidcSourceRepositoryRef, .der),
   (15, .oidcSourceRepositoryIdentifier, .der), (16, .oidcSourceRepositoryOwnerUri, .der),
   (17, .oidcSourceRepositoryOwnerIdentifier, .der), (18, .oidcBuildConfigUri, .der),
   (19, .oidcBuildConfigDigest, .der), (20, .oidcBuildTrigger, .der), (21, .oidcRunInvocationUri, .der),
   (22, .oidcSourceRepositoryVisibility, .der)]

/-- extension OIDs do not repeat (RFC 5280 4.2; `cryptography` refuses such certificates) -/
def UniqueExts (cert : Cert) : Prop := (cert.exts.map Prod.fst).Nodup

/-- the certificate claims `value` for a class: it carries the extension of Fulcio's table with that
value in the table's encoding -/
def Claims (cert : Cert) (cls : ExtClass) (value : Str) : Prop :=
  ∃ n enc, (n, cls, enc) ∈ fulcioTable ∧ ([1, 3, 6, 1, 4, 1, 57264, 1, n], enc.encode value) ∈ cert.exts

/-- the certificate was issued to an identity: it is literally one of its email, URI or Fulcio
"other name" SANs -/
def IssuedTo (cert : Cert) (identity : Str) : Prop :=
  ∃ names, cert.san = some names ∧
    (.rfc822 identity ∈ names ∨ .uri identity ∈ names ∨
      .otherName [1, 3, 6, 1, 4, 1, 57264, 1, 7] (utf8 identity) ∈ names)

end Sigstore.Spec
