import Verif.Model.Shown
import Verif.Spec.Args

/-!
# Specification: the credentials among the options
-/

namespace Sigstore.Spec

open Sigstore.Cli

/-- the options that hold credentials, and their environment variables -/
inductive Credential : Command → String → String → Prop
  | signToken : Credential .sign "--identity-token" "SIGSTORE_IDENTITY_TOKEN"
  | attestToken : Credential .attest "--identity-token" "SIGSTORE_IDENTITY_TOKEN"
  | signSecret : Credential .sign "--oidc-client-secret" "SIGSTORE_OIDC_CLIENT_SECRET"
  | attestSecret : Credential .attest "--oidc-client-secret" "SIGSTORE_OIDC_CLIENT_SECRET"
  | getSecret : Credential .getIdentityToken "--oidc-client-secret" "SIGSTORE_OIDC_CLIENT_SECRET"

/-- a text of visible ASCII characters without quotes and backslashes, as tokens are -/
def PlainText (s : Str) : Prop := ∀ c ∈ s, 32 ≤ c.toNat ∧ c.toNat < 127 ∧ c ≠ '\'' ∧ c ≠ '\\'

/-- debug messages of the package are asked for: with `-v` after the command, or with `SIGSTORE_LOGLEVEL` -/
def DebugAskedFor (upper : Str → Str) (loglevel : Option Str) (line : CommandLine) : Prop :=
  timesGiven ["-v", "--verbose"] line.sub ≥ 1 ∨ ∃ l, loglevel = some l ∧ upper l = "DEBUG".toList

end Sigstore.Spec
