import Verif.Prelude.Path
import Verif.Prelude.Dict
import Mathlib.Logic.Function.Basic

/-!
# Model of the command line and the environment (`/repo/sigstore/_cli.py:117-237,239-624`)

The tables list the options that `_parser` declares; `parseArgs` is what argparse makes of them.  Simplifications:
the command line is given as the occurrences of options, per parser, and the positional arguments of the innermost parser,
so the order between options and positional arguments is left out.  How argparse finds these in the words is in
`Verif.Model.Argv`.
-/

namespace Sigstore.Cli

/-- `os.getenv` -/
abbrev Environ := Str → Option Str

/-- `_boolify_env` (`_cli.py:117-135`).  No character outside ASCII has a lower case with a letter of these words, so
lower-casing ASCII is enough. -/
def boolifyEnv (environ : Environ) (name : Str) : Py Bool :=
  match environ name with
  | none => .ok false
  | some val =>
    let val := val.map Char.toLower
    if val ∈ ["y", "yes", "true", "t", "on", "1"].map String.toList then .ok true
    else if val ∈ ["n", "no", "false", "f", "off", "0"].map String.toList then .ok false
    else .error .valueError

/-- a value in an `argparse.Namespace`, before the conversion by `type` -/
inductive Val where
  | null
  | text (s : Str)
  | flag (b : Bool)
  | count (n : Nat)
deriving DecidableEq, Repr

/-- the `default` of an option -/
inductive Default where
  /-- `None` -/
  | null
  /-- `argparse.SUPPRESS` -/
  | suppress
  /-- `False`, the default of `store_true` -/
  | off
  /-- `0` -/
  | zero
  /-- `os.getenv(name)` or `os.getenv(name, fallback)` -/
  | env (name : Str) (fallback : Option Str)
  /-- `_boolify_env(name)` -/
  | envFlag (name : Str)
deriving DecidableEq, Repr

/-- the `action` of an option; `info` prints the help or the version -/
inductive Action where
  | store
  | storeTrue
  | count
  | info
deriving DecidableEq, Repr

/-- an option -/
structure Opt where
  names : List Str
  dest : Str
  action : Action
  default : Default
  required : Bool
deriving DecidableEq, Repr

/-- `argparse.Namespace` -/
abbrev Namespace := Str → Option Val

/-! ## The tables -/

/-- `add_argument` with a value -/
def opt (names : List String) (dest : String) (default : Default) (required : Bool := false) : Opt :=
  ⟨names.map String.toList, dest.toList, .store, default, required⟩

/-- `add_argument` with `action="store_true"` -/
def optFlag (name dest : String) (default : Default) : Opt := ⟨[name.toList], dest.toList, .storeTrue, default, false⟩

/-- `os.getenv(name)` -/
def env (name : String) : Default := .env name.toList none

/-- `_boolify_env(name)` -/
def envFlag (name : String) : Default := .envFlag name.toList

/-- `--help` of every parser and `parent_parser` (`_cli.py:239-248`) -/
def commonOptions : List Opt :=
  [⟨["-h", "--help"].map String.toList, "help".toList, .info, .suppress, false⟩,
   ⟨["-v", "--verbose"].map String.toList, "verbose".toList, .count, .zero, false⟩]

/-- the main parser (`_cli.py:250-286`) -/
def mainOptions : List Opt :=
  commonOptions ++
  [⟨["-V", "--version"].map String.toList, "version".toList, .info, .suppress, false⟩,
   optFlag "--staging" "staging" (envFlag "SIGSTORE_STAGING"),
   opt ["--instance"] "instance" .null,
   opt ["--trust-config"] "trust_config" .null]

/-- the mutually exclusive group (`_cli.py:260-286`) -/
def exclusiveGroup : List Str := ["staging", "instance", "trust_config"].map String.toList

/-- `_add_shared_oidc_options` (`_cli.py:197-236`) -/
def oidcOptions : List Opt :=
  [opt ["--oidc-client-id"] "oidc_client_id" (.env "SIGSTORE_OIDC_CLIENT_ID".toList (some "sigstore".toList)),
   opt ["--oidc-client-secret"] "oidc_client_secret" (env "SIGSTORE_OIDC_CLIENT_SECRET"),
   optFlag "--oidc-disable-ambient-providers" "oidc_disable_ambient_providers"
     (envFlag "SIGSTORE_OIDC_DISABLE_AMBIENT_PROVIDERS"),
   opt ["--oidc-issuer"] "oidc_issuer" (env "SIGSTORE_OIDC_ISSUER"),
   optFlag "--oauth-force-oob" "oauth_force_oob" (envFlag "SIGSTORE_OAUTH_FORCE_OOB")]

/-- `sigstore attest` (`_cli.py:294-358`) -/
def attestOptions : List Opt :=
  commonOptions ++
  [opt ["--rekor-version"] "rekor_version" .suppress,
   opt ["--predicate"] "predicate" .null true,
   opt ["--predicate-type"] "predicate_type" .null true,
   opt ["--identity-token"] "identity_token" (env "SIGSTORE_IDENTITY_TOKEN")] ++
  oidcOptions ++
  [opt ["--bundle"] "bundle" (env "SIGSTORE_BUNDLE"),
   optFlag "--overwrite" "overwrite" (envFlag "SIGSTORE_OVERWRITE")]

/-- `sigstore sign` (`_cli.py:360-447`) -/
def signOptions : List Opt :=
  commonOptions ++
  [opt ["--rekor-version"] "rekor_version" .suppress,
   opt ["--identity-token"] "identity_token" (env "SIGSTORE_IDENTITY_TOKEN")] ++
  oidcOptions ++
  [optFlag "--no-default-files" "no_default_files" (envFlag "SIGSTORE_NO_DEFAULT_FILES"),
   opt ["--signature", "--output-signature"] "signature" (env "SIGSTORE_OUTPUT_SIGNATURE"),
   opt ["--certificate", "--output-certificate"] "certificate" (env "SIGSTORE_OUTPUT_CERTIFICATE"),
   opt ["--bundle"] "bundle" (env "SIGSTORE_BUNDLE"),
   opt ["--output-directory"] "output_directory" (env "SIGSTORE_OUTPUT_DIRECTORY"),
   optFlag "--overwrite" "overwrite" (envFlag "SIGSTORE_OVERWRITE")]

/-- `_add_shared_verify_input_options` (`_cli.py:138-163`) and `_add_shared_verification_options` (`_cli.py:188-194`) -/
def verifyOptions : List Opt :=
  [opt ["--certificate", "--cert"] "certificate" (env "SIGSTORE_CERTIFICATE"),
   opt ["--signature"] "signature" (env "SIGSTORE_SIGNATURE"),
   opt ["--bundle"] "bundle" (env "SIGSTORE_BUNDLE"),
   optFlag "--offline" "offline" (envFlag "SIGSTORE_OFFLINE")]

/-- `sigstore verify identity` (`_cli.py:463-490`) -/
def verifyIdentityOptions : List Opt :=
  commonOptions ++ verifyOptions ++
  [opt ["--cert-identity"] "cert_identity" (env "SIGSTORE_CERT_IDENTITY") true,
   opt ["--cert-oidc-issuer"] "cert_oidc_issuer" (env "SIGSTORE_CERT_OIDC_ISSUER") true]

/-- `sigstore verify github` (`_cli.py:492-552`) -/
def verifyGithubOptions : List Opt :=
  commonOptions ++ verifyOptions ++
  [opt ["--cert-identity"] "cert_identity" (env "SIGSTORE_CERT_IDENTITY"),
   opt ["--trigger"] "workflow_trigger" (env "SIGSTORE_VERIFY_GITHUB_WORKFLOW_TRIGGER"),
   opt ["--sha"] "workflow_sha" (env "SIGSTORE_VERIFY_GITHUB_WORKFLOW_SHA"),
   opt ["--name"] "workflow_name" (env "SIGSTORE_VERIFY_GITHUB_WORKFLOW_NAME"),
   opt ["--repository"] "workflow_repository" (env "SIGSTORE_VERIFY_GITHUB_WORKFLOW_REPOSITORY"),
   opt ["--ref"] "workflow_ref" (env "SIGSTORE_VERIFY_GITHUB_WORKFLOW_REF")]

/-- `sigstore plumbing fix-bundle` (`_cli.py:594-613`) -/
def fixBundleOptions : List Opt :=
  commonOptions ++
  [opt ["--bundle"] "bundle" .null true,
   optFlag "--upgrade-version" "upgrade_version" .off,
   optFlag "--in-place" "in_place" .off]

/-- the commands -/
inductive Command where
  | attest
  | sign
  | verifyIdentity
  | verifyGithub
  | getIdentityToken
  | trustInstance
  | fixBundle
  | updateTrustRoot
deriving DecidableEq, Repr

/-- the options of the innermost parser (`_cli.py:294-622`) -/
def Command.options : Command → List Opt
  | .attest => attestOptions
  | .sign => signOptions
  | .verifyIdentity => verifyIdentityOptions
  | .verifyGithub => verifyGithubOptions
  | .getIdentityToken => commonOptions ++ oidcOptions
  | .trustInstance => commonOptions
  | .fixBundle => fixBundleOptions
  | .updateTrustRoot => commonOptions

/-- the commands below `sigstore verify` and `sigstore plumbing`, whose own parsers have only the common options
(`_cli.py:449-461,579-592`) -/
def Command.nested : Command → Bool
  | .verifyIdentity | .verifyGithub | .fixBundle | .updateTrustRoot => true
  | _ => false

/-- all commands -/
def commands : List Command :=
  [.attest, .sign, .verifyIdentity, .verifyGithub, .getIdentityToken, .trustInstance, .fixBundle, .updateTrustRoot]

/-! ## argparse -/

/-- the value of a default, `none` if the attribute is not set -/
def evalDefault (environ : Environ) : Default → Py (Option Val)
  | .null => .ok (some .null)
  | .suppress => .ok none
  | .off => .ok (some (.flag false))
  | .zero => .ok (some (.count 0))
  | .env name fallback =>
    match environ name with
    | some s => .ok (some (.text s))
    | none =>
      match fallback with
      | some s => .ok (some (.text s))
      | none => .ok (some .null)
  | .envFlag name =>
    match boolifyEnv environ name with
    | .error e => .error e
    | .ok b => .ok (some (.flag b))

/-- the namespace that parsing starts with -/
def initial (environ : Environ) : List Opt → Py Namespace
  | [] => .ok fun _ => none
  | o :: rest =>
    match evalDefault environ o.default with
    | .error e => .error e
    | .ok v =>
      match initial environ rest with
      | .error e => .error e
      | .ok ns =>
        match v with
        | none => .ok ns
        | some v => .ok (Function.update ns o.dest (some v))

/-- all defaults are computed when the parsers are built (`_cli.py:239-624`) -/
def buildParsers (environ : Environ) : List Command → Py Unit
  | [] =>
    match initial environ mainOptions with
    | .error e => .error e
    | .ok _ => .ok ()
  | c :: rest =>
    match initial environ c.options with
    | .error e => .error e
    | .ok _ => buildParsers environ rest

/-- an option on the command line, with its value if there is one -/
structure Occ where
  name : Str
  value : Option Str
deriving DecidableEq, Repr

/-- the state of parsing at one level: the namespace, the options that occurred, and whether there was an unknown one -/
structure LevelState where
  ns : Namespace
  seen : List Str
  extras : Bool

/-- the new value of an attribute; a missing or superfluous value is an error -/
def Opt.apply (o : Opt) (value : Option Str) (old : Option Val) : Py Val :=
  match o.action, value with
  | .store, some v => .ok (.text v)
  | .storeTrue, none => .ok (.flag true)
  | .count, none =>
    match old with
    | some (.count n) => .ok (.count (n + 1))
    | _ => .ok (.count 1)
  | .info, none => .error (.systemExit 0)
  | _, _ => .error (.systemExit 2)

/-- one occurrence.  An unknown option is remembered, and reported at the end. -/
def takeOcc (opts : List Opt) (exclusive : List Str) (st : LevelState) (occ : Occ) : Py LevelState :=
  match opts.find? fun o => decide (occ.name ∈ o.names) with
  | none => .ok { st with extras := true }
  | some o =>
    match o.apply occ.value (st.ns o.dest) with
    | .error e => .error e
    | .ok v =>
      if o.dest ∈ exclusive && st.seen.any fun d => decide (d ∈ exclusive ∧ d ≠ o.dest) then .error (.systemExit 2)
      else .ok { st with ns := Function.update st.ns o.dest (some v), seen := o.dest :: st.seen }

/-- all occurrences, in order -/
def takeAll (opts : List Opt) (exclusive : List Str) (st : LevelState) : List Occ → Py LevelState
  | [] => .ok st
  | occ :: rest =>
    match takeOcc opts exclusive st occ with
    | .error e => .error e
    | .ok st => takeAll opts exclusive st rest

/-- one parser: its namespace, and whether there was an unknown option -/
def parseLevel (environ : Environ) (opts : List Opt) (exclusive : List Str) (occs : List Occ) : Py (Namespace × Bool) :=
  match initial environ opts with
  | .error e => .error e
  | .ok ns =>
    match takeAll opts exclusive ⟨ns, [], false⟩ occs with
    | .error e => .error e
    | .ok st =>
      if opts.any fun o => o.required && decide (o.dest ∉ st.seen) then .error (.systemExit 2) else .ok (st.ns, st.extras)

/-- a command line: the options before the command, those between `verify` or `plumbing` and its subcommand (of no
importance for other commands), and those after it, and the positional arguments -/
structure CommandLine where
  top : List Occ
  middle : List Occ
  command : Command
  sub : List Occ
  positional : List Str
deriving DecidableEq, Repr

/-- how many positional arguments a command takes (`files`, `files_or_digest`, `root`) -/
def Command.arity : Command → List Str → Bool
  | .attest, ps | .sign, ps | .verifyIdentity, ps | .verifyGithub, ps => !ps.isEmpty
  | .trustInstance, ps => decide (ps.length = 1)
  | _, ps => ps.isEmpty

/-- a subparser works on its own namespace, and then overwrites the attributes of its parent -/
def Namespace.over (sub parent : Namespace) : Namespace := fun d =>
  match sub d with
  | some v => some v
  | none => parent d

/-- `_parser().parse_args(...)` (`_cli.py:630-631`) -/
def parseArgs (environ : Environ) (line : CommandLine) : Py Namespace :=
  match buildParsers environ commands with
  | .error e => .error e
  | .ok () =>
    match parseLevel environ mainOptions exclusiveGroup line.top with
    | .error e => .error e
    | .ok (top, x) =>
      match (if line.command.nested then parseLevel environ commonOptions [] line.middle else .ok (fun _ => none, false)) with
      | .error e => .error e
      | .ok (middle, y) =>
        match parseLevel environ line.command.options [] line.sub with
        | .error e => .error e
        | .ok (sub, z) =>
          if x || y || z || !line.command.arity line.positional then .error (.systemExit 2)
          else .ok ((sub.over middle).over top)

/-! ## Attributes -/

/-- an optional text -/
def Namespace.text (ns : Namespace) (dest : String) : Option Str :=
  match ns dest.toList with
  | some (.text s) => some s
  | _ => none

/-- an optional text with `type=Path` -/
def Namespace.path (ns : Namespace) (dest : String) : Option Path := (ns.text dest).map Path.ofStr

/-- a flag; `getattr(args, dest, False)` for commands that do not have it -/
def Namespace.flag (ns : Namespace) (dest : String) : Bool :=
  match ns dest.toList with
  | some (.flag b) => b
  | _ => false

/-- `args.verbose` -/
def Namespace.verbosity (ns : Namespace) : Nat :=
  match ns "verbose".toList with
  | some (.count n) => n
  | _ => 0

end Sigstore.Cli
