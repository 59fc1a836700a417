import Verif.Model.CliMain

/-!
# Specification of the command line: what may be written, and what it means
-/

namespace Sigstore.Spec

open Sigstore.Cli Sigstore.Dsse

/-! ## What is given -/

/-- an option occurs -/
def Occurs (names : List String) (occs : List Occ) : Prop := ∃ o ∈ occs, ∃ n ∈ names, o.name = n.toList

/-- the value of the last occurrence of an option -/
inductive LastGiven (names : List String) : List Occ → Str → Prop
  | here {o : Occ} {rest : List Occ} {v : Str} : (∃ n ∈ names, o.name = n.toList) → o.value = some v → ¬ Occurs names rest →
      LastGiven names (o :: rest) v
  | later {o : Occ} {rest : List Occ} {v : Str} : LastGiven names rest v → LastGiven names (o :: rest) v

/-- equal up to the case of ASCII letters -/
def SameWord (s : Str) (w : String) : Prop := List.Forall₂ (fun c l => c = l ∨ c = l.toUpper) s w.toList

/-- the words that switch something on -/
def Yes (s : Str) : Prop := ∃ w ∈ ["y", "yes", "true", "t", "on", "1"], SameWord s w

/-- the words that switch something off -/
def No (s : Str) : Prop := ∃ w ∈ ["n", "no", "false", "f", "off", "0"], SameWord s w

/-- the value of an option: the last one given, else that of its environment variable, else the default -/
inductive TextValue (environ : Environ) (occs : List Occ) (names : List String) (var : Option String) (fallback : Option Str) :
    Option Str → Prop
  | given {v : Str} : LastGiven names occs v → TextValue environ occs names var fallback (some v)
  | environment {x : String} {v : Str} : ¬ Occurs names occs → var = some x → environ x.toList = some v →
      TextValue environ occs names var fallback (some v)
  | default : ¬ Occurs names occs → (∀ x, var = some x → environ x.toList = none) →
      TextValue environ occs names var fallback fallback

/-- the same for an option that is a path -/
def PathValue (environ : Environ) (occs : List Occ) (names : List String) (var : Option String) (p : Option Path) : Prop :=
  ∃ t, TextValue environ occs names var none t ∧ p = t.map Path.ofStr

/-- a flag is set if it is given, or switched on by its environment variable -/
def FlagValue (environ : Environ) (occs : List Occ) (name : String) (var : Option String) (b : Bool) : Prop :=
  b = true ↔ Occurs [name] occs ∨ ∃ x v, var = some x ∧ environ x.toList = some v ∧ Yes v

/-! ## What the options of each command mean -/

/-- the instance (given before the command) and the options that go with it -/
structure TrustOptions (environ : Environ) (top sub : List Occ) (hasOffline : Bool) (t : TrustArgs) : Prop where
  trustConfig : PathValue environ top ["--trust-config"] none t.trustConfig
  instance_ : TextValue environ top ["--instance"] none none t.instance_
  staging : FlagValue environ top "--staging" (some "SIGSTORE_STAGING") t.staging
  offline : if hasOffline then FlagValue environ sub "--offline" (some "SIGSTORE_OFFLINE") t.offline else t.offline = false

/-- the log version -/
def RekorVersion (int : Str → Option Nat) (sub : List Occ) (version : Option Nat) : Prop :=
  match version with
  | none => ¬ Occurs ["--rekor-version"] sub
  | some n => ∃ s, LastGiven ["--rekor-version"] sub s ∧ int s = some n

/-- the options that concern the identity; `get-identity-token` does not have `--identity-token` -/
structure IdentityOptions (environ : Environ) (sub : List Occ) (hasToken : Bool) (i : IdentityArgs) : Prop where
  token : if hasToken then TextValue environ sub ["--identity-token"] (some "SIGSTORE_IDENTITY_TOKEN") none i.identityToken
    else i.identityToken = none
  clientId : TextValue environ sub ["--oidc-client-id"] (some "SIGSTORE_OIDC_CLIENT_ID") (some "sigstore".toList)
    (some i.clientId)
  clientSecret : TextValue environ sub ["--oidc-client-secret"] (some "SIGSTORE_OIDC_CLIENT_SECRET") none i.clientSecret
  disableAmbient : FlagValue environ sub "--oidc-disable-ambient-providers" (some "SIGSTORE_OIDC_DISABLE_AMBIENT_PROVIDERS")
    i.disableAmbient
  issuer : TextValue environ sub ["--oidc-issuer"] (some "SIGSTORE_OIDC_ISSUER") none i.issuer
  forceOob : FlagValue environ sub "--oauth-force-oob" (some "SIGSTORE_OAUTH_FORCE_OOB") i.forceOob

/-- `sigstore sign` -/
structure SignOptions (environ : Environ) (sub : List Occ) (positional : List Str) (a : SignArgs) : Prop where
  files : a.files = positional.map Path.ofStr
  signature : PathValue environ sub ["--signature", "--output-signature"] (some "SIGSTORE_OUTPUT_SIGNATURE") a.signature
  certificate : PathValue environ sub ["--certificate", "--output-certificate"] (some "SIGSTORE_OUTPUT_CERTIFICATE")
    a.certificate
  bundle : PathValue environ sub ["--bundle"] (some "SIGSTORE_BUNDLE") a.bundle
  outputDirectory : PathValue environ sub ["--output-directory"] (some "SIGSTORE_OUTPUT_DIRECTORY") a.outputDirectory
  noDefaultFiles : FlagValue environ sub "--no-default-files" (some "SIGSTORE_NO_DEFAULT_FILES") a.noDefaultFiles
  overwrite : FlagValue environ sub "--overwrite" (some "SIGSTORE_OVERWRITE") a.overwrite

/-- `sigstore attest` -/
structure AttestOptions (environ : Environ) (sub : List Occ) (positional : List Str) (a : AttestArgs) : Prop where
  files : a.files = positional.map Path.ofStr
  predicate : ∃ s, LastGiven ["--predicate"] sub s ∧ a.predicate = Path.ofStr s
  predicateType : LastGiven ["--predicate-type"] sub a.predicateType
  supported : a.predicateType = "https://slsa.dev/provenance/v0.2".toList ∨
    a.predicateType = "https://slsa.dev/provenance/v1".toList
  bundle : PathValue environ sub ["--bundle"] (some "SIGSTORE_BUNDLE") a.bundle
  overwrite : FlagValue environ sub "--overwrite" (some "SIGSTORE_OVERWRITE") a.overwrite

/-- the materials of `sigstore verify` -/
structure VerifyOptions (environ : Environ) (sub : List Occ) (certificate signature bundle : Option Path) : Prop where
  certificate : PathValue environ sub ["--certificate", "--cert"] (some "SIGSTORE_CERTIFICATE") certificate
  signature : PathValue environ sub ["--signature"] (some "SIGSTORE_SIGNATURE") signature
  bundle : PathValue environ sub ["--bundle"] (some "SIGSTORE_BUNDLE") bundle

/-- the claims of `sigstore verify github` -/
structure GithubOptions (environ : Environ) (sub : List Occ) (a : GithubArgs) : Prop where
  identity : TextValue environ sub ["--cert-identity"] (some "SIGSTORE_CERT_IDENTITY") none a.certIdentity
  trigger : TextValue environ sub ["--trigger"] (some "SIGSTORE_VERIFY_GITHUB_WORKFLOW_TRIGGER") none a.workflowTrigger
  sha : TextValue environ sub ["--sha"] (some "SIGSTORE_VERIFY_GITHUB_WORKFLOW_SHA") none a.workflowSha
  name : TextValue environ sub ["--name"] (some "SIGSTORE_VERIFY_GITHUB_WORKFLOW_NAME") none a.workflowName
  repository : TextValue environ sub ["--repository"] (some "SIGSTORE_VERIFY_GITHUB_WORKFLOW_REPOSITORY") none
    a.workflowRepository
  ref : TextValue environ sub ["--ref"] (some "SIGSTORE_VERIFY_GITHUB_WORKFLOW_REF") none a.workflowRef

/-! ## What may be written -/

/-- the options with a value and those without, as documented -/
structure Documented where
  values : List String
  flags : List String

/-- the options before the command -/
def documentedTop : Documented := ⟨["--instance", "--trust-config"], ["-v", "--verbose", "--staging"]⟩

/-- the options between `verify` or `plumbing` and its subcommand -/
def documentedMiddle : Documented := ⟨[], ["-v", "--verbose"]⟩

/-- the options of OpenID Connect -/
def documentedOidc : Documented :=
  ⟨["--oidc-client-id", "--oidc-client-secret", "--oidc-issuer"], ["--oidc-disable-ambient-providers", "--oauth-force-oob"]⟩

/-- the options of a command -/
def documented : Command → Documented
  | .sign => ⟨["--rekor-version", "--identity-token", "--signature", "--output-signature", "--certificate",
      "--output-certificate", "--bundle", "--output-directory"] ++ documentedOidc.values,
      ["-v", "--verbose", "--no-default-files", "--overwrite"] ++ documentedOidc.flags⟩
  | .attest => ⟨["--rekor-version", "--predicate", "--predicate-type", "--identity-token", "--bundle"] ++
      documentedOidc.values, ["-v", "--verbose", "--overwrite"] ++ documentedOidc.flags⟩
  | .verifyIdentity => ⟨["--certificate", "--cert", "--signature", "--bundle", "--cert-identity", "--cert-oidc-issuer"],
      ["-v", "--verbose", "--offline"]⟩
  | .verifyGithub => ⟨["--certificate", "--cert", "--signature", "--bundle", "--cert-identity", "--trigger", "--sha",
      "--name", "--repository", "--ref"], ["-v", "--verbose", "--offline"]⟩
  | .getIdentityToken => ⟨documentedOidc.values, ["-v", "--verbose"] ++ documentedOidc.flags⟩
  | .trustInstance => ⟨[], ["-v", "--verbose"]⟩
  | .fixBundle => ⟨["--bundle"], ["-v", "--verbose", "--upgrade-version", "--in-place"]⟩
  | .updateTrustRoot => ⟨[], ["-v", "--verbose"]⟩

/-- an occurrence of a documented option, with a value exactly if it takes one -/
def Documented.Allows (d : Documented) (o : Occ) : Prop :=
  (∃ n ∈ d.values, o.name = n.toList ∧ o.value ≠ none) ∨ (∃ n ∈ d.flags, o.name = n.toList ∧ o.value = none)

/-- the options that must be given -/
def requiredOptions : Command → List String
  | .attest => ["--predicate", "--predicate-type"]
  | .verifyIdentity => ["--cert-identity", "--cert-oidc-issuer"]
  | .fixBundle => ["--bundle"]
  | _ => []

/-- the environment variables that are switches -/
def switches : List String :=
  ["SIGSTORE_STAGING", "SIGSTORE_OFFLINE", "SIGSTORE_OVERWRITE", "SIGSTORE_NO_DEFAULT_FILES",
   "SIGSTORE_OIDC_DISABLE_AMBIENT_PROVIDERS", "SIGSTORE_OAUTH_FORCE_OOB"]

/-- the switches in the environment can be understood -/
def EnvironOk (environ : Environ) : Prop := ∀ x ∈ switches, ∀ v, environ x.toList = some v → Yes v ∨ No v

/-- a command line that is well-formed and does not ask for help -/
structure LineOk (line : CommandLine) : Prop where
  top : ∀ o ∈ line.top, documentedTop.Allows o
  middle : line.command ∈ [.verifyIdentity, .verifyGithub, .fixBundle, .updateTrustRoot] →
    ∀ o ∈ line.middle, documentedMiddle.Allows o
  sub : ∀ o ∈ line.sub, (documented line.command).Allows o
  /-- at most one way to choose an instance -/
  exclusive : ∀ x ∈ ["--staging", "--instance", "--trust-config"], ∀ y ∈ ["--staging", "--instance", "--trust-config"],
    Occurs [x] line.top → Occurs [y] line.top → x = y
  required : ∀ x ∈ requiredOptions line.command, Occurs [x] line.sub
  positional : match line.command with
    | .sign | .attest | .verifyIdentity | .verifyGithub => line.positional ≠ []
    | .trustInstance => ∃ root, line.positional = [root]
    | _ => line.positional = []

/-- the line asks for the help or for the version -/
def AsksForHelp (line : CommandLine) : Prop :=
  Occurs ["-h", "--help", "-V", "--version"] line.top ∨ Occurs ["-h", "--help"] line.middle ∨ Occurs ["-h", "--help"] line.sub

/-- how often an option occurs -/
def timesGiven (names : List String) (occs : List Occ) : Nat :=
  (occs.filter fun o => decide (o.name ∈ names.map String.toList)).length

/-- the occurrences other than `-v` and `--verbose` -/
def quiet (occs : List Occ) : List Occ := occs.filter fun o => decide (o.name ∉ ["-v", "--verbose"].map String.toList)

/-- lines that differ at most in how verbose they ask to be -/
structure SameButVerbose (line line' : CommandLine) : Prop where
  command : line.command = line'.command
  positional : line.positional = line'.positional
  top : quiet line.top = quiet line'.top
  sub : quiet line.sub = quiet line'.sub

end Sigstore.Spec
