import Verif.Model.Bundle

/-!
# An artifact's signature presented as an attestation
-/

namespace Sigstore.Spec

open Sigstore.Dsse

/-- the certificate, signature, log entry and timestamps of a bundle, around an envelope of another payload -/
def asAttestation (b : Bundle) (signature : Bytes) (type_ : Str) (payload : Bytes) : Bundle :=
  { b with inner := { b.inner with messageSignature := none, dsseEnvelope := some ⟨payload, type_, [signature]⟩ } }

/-- The parsers of log entries read the same members `kind` and `apiVersion` of a body: one that is a `hashedrekord` is no `dsse`, and
the versions agree. -/
structure SameMembers (env : Env) : Prop where
  version : ∀ body a x, env.parseHashedrekord body = some a → env.parseV2 body = some x → a.apiVersion = x.apiVersion
  kind : ∀ body a, env.parseHashedrekord body = some a → env.parseDsse body = none
  kindV2 : ∀ body d x, env.parseDsse body = some d → env.parseV2 body = some x → x.kind = "dsse".toList

/-- the first bytes of everything that is signed for an attestation -/
def attestationPrefix : Bytes := [0x44, 0x53, 0x53, 0x45, 0x76, 0x31, 0x20]

end Sigstore.Spec
