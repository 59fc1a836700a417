import Verif.Model.Policy

/-!
# Model of the policy construction of `sigstore verify` (`/repo/sigstore/_cli.py:1139-1195`)
-/

namespace Sigstore.Cli

open Sigstore.Policy

/-- The options of `sigstore verify github` that enter the policy (`_cli.py:505-551`); absent options
are `None`, and an empty string counts as absent. -/
structure GithubArgs where
  certIdentity : Option Str
  workflowTrigger : Option Str
  workflowSha : Option Str
  workflowName : Option Str
  workflowRepository : Option Str
  workflowRef : Option Str
deriving DecidableEq, Repr

/-- truthiness of an optionalPolicy string -/
def truthy : Option Str → Bool
  | none => false
  | some [] => false
  | some (_ :: _) => true

/-- `"https://token.actions.githubusercontent.com"` (`_cli.py:1174`) -/
def githubIssuer : Str := "https://token.actions.githubusercontent.com".toList

/-- append a policy for an option that is given -/
def optionalPolicy (o : Option Str) (mk : Str → Policy) : List Policy :=
  if truthy o then match o with | some v => [mk v] | none => [] else []

/-- Policy built by `_verify_github` (`_cli.py:1163-1197`); `parser.error` exits with status 2. -/
def githubPolicy (args : GithubArgs) : Py Policy :=
  if !(truthy args.certIdentity || truthy args.workflowRepository) then .error (.systemExit 2)
  else
    .ok (.allOf (
      [.ext .oidcIssuer githubIssuer]
      ++ optionalPolicy args.certIdentity (fun v => .identity v none)
      ++ optionalPolicy args.workflowTrigger (.ext .githubWorkflowTrigger)
      ++ optionalPolicy args.workflowSha (.ext .githubWorkflowSha)
      ++ optionalPolicy args.workflowName (.ext .githubWorkflowName)
      ++ optionalPolicy args.workflowRepository (.ext .githubWorkflowRepository)
      ++ optionalPolicy args.workflowRef (.ext .githubWorkflowRef)))

/-- Policy built by `_verify_identity` (`_cli.py:1142-1146`). -/
def identityPolicy (certIdentity : Str) (certOidcIssuer : Option Str) : Policy :=
  .identity certIdentity certOidcIssuer

end Sigstore.Cli
