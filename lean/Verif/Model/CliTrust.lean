import Verif.Model.Tuf
import Verif.Model.SigningConfig
import Verif.Model.Cert

/-!
# Model of `_get_trust_config` (`/repo/sigstore/_cli.py:1254-1276`), `_trust_instance` (`_cli.py:670-683`) and of process
exit statuses
-/

namespace Sigstore.Cli

open Sigstore.Trust Sigstore.Config Sigstore.Tuf

/-- the user's files: whether a path is a regular file, and what reading it gives or raises.  They do not change during
one command, except by its own outputs. -/
structure Fs where
  isFile : Path → Bool
  read : Path → Py Bytes

/-- a parsed client trust configuration: its own media type (which nothing reads), the media type of its trusted root, the
trusted root and the signing configuration -/
structure TrustConfigMsg where
  mediaType : Str
  rootMediaType : Str
  root : TrustedRoot Cert
  signingConfig : SigningConfigMsg

/-- JSON parsers of the trust material (`trustroot_v1.ClientTrustConfig.from_json`, `TrustedRoot.from_json`,
`SigningConfig.from_json`) -/
structure TrustParsers where
  config : Bytes → Py TrustConfigMsg
  root : Bytes → Py (Str × TrustedRoot Cert)
  signingConfig : Bytes → Py SigningConfigMsg

/-- `ClientTrustConfig` (`models.py:903-1005`): the media type of the trusted root, the trusted root, the signing
configuration and the forced log version -/
structure LoadedConfig where
  rootMediaType : Str
  root : TrustedRoot Cert
  signingConfig : SigningConfigMsg
  forceTlogVersion : Option Nat

/-- the options that select an instance (`_cli.py:260-287`), `--offline` (false for commands that do not have it) and
`--rekor-version` (`none` for commands that do not have it, or if it is not given) -/
structure TrustArgs where
  trustConfig : Option Path
  instance_ : Option Str
  staging : Bool
  offline : Bool
  rekorVersion : Option Nat
deriving DecidableEq, Repr

/-- where the configuration comes from -/
inductive TrustSource where
  | file (p : Path)
  | tuf (url : Str)
deriving DecidableEq, Repr

/-- the choice in `_get_trust_config` (`_cli.py:1264-1271`), with `production` and `staging` (`models.py:927-949`); a
`Path` is always truthy, an empty instance URL is not -/
def trustSource (args : TrustArgs) : TrustSource :=
  match args.trustConfig with
  | some p => .file p
  | none =>
    match args.instance_ with
    | some (c :: cs) => .tuf (c :: cs)
    | _ => if args.staging then .tuf stagingTufUrl else .tuf defaultTufUrl

/-- parsing what TUF returned (`models.py:965-980`).  Simplification: the trusted root is parsed after both files were
fetched, not in between. -/
def parseTuf (parsers : TrustParsers) (tr sc : Bytes) : Py (Str × TrustedRoot Cert × SigningConfigMsg) :=
  match parsers.root tr with
  | .error e => .error e
  | .ok (mt, root) =>
    match parsers.signingConfig sc with
    | .error e => .error e
    | .ok cfg => .ok (mt, root, cfg)

/-- `_get_trust_config` (`_cli.py:1254-1276`) -/
def getTrustConfig (fs : Fs) (env : Tuf.Env) (parsers : TrustParsers) (args : TrustArgs) (w : Tuf.World) :
    Py LoadedConfig × Tuf.World :=
  match trustSource args with
  | .file p =>
    match fs.read p with
    | .error e => (.error e, w)
    | .ok b =>
      match parsers.config b with
      | .error e => (.error e, w)
      | .ok m => (.ok ⟨m.rootMediaType, m.root, m.signingConfig, args.rekorVersion⟩, w)
  | .tuf url =>
    match fromTuf env url args.offline none w with
    | (.error e, w) => (.error e, w)
    | (.ok (tr, sc), w) =>
      match parseTuf parsers tr sc with
      | .error e => (.error e, w)
      | .ok (mt, root, cfg) => (.ok ⟨mt, root, cfg, args.rekorVersion⟩, w)

/-- the `trusted_root` property with the check of its media type (`models.py:809-828,991-996`) -/
def LoadedConfig.trustedRoot (c : LoadedConfig) : Py (TrustedRoot Cert) :=
  if c.rootMediaType = trustedRootMediaType then .ok c.root else .error .error

/-- `_trust_instance` (`_cli.py:670-683`) -/
def trustInstance (fs : Fs) (env : Tuf.Env) (parsers : TrustParsers) (root : Path) (instance_ : Option Str)
    (w : Tuf.World) : Py Unit × Tuf.World :=
  if !fs.isFile root then (.error (.systemExit 2), w)
  else
    match instance_ with
    | none => (.error (.systemExit 2), w)
    | some url =>
      match fromTuf env url false (some (fs.read root)) w with
      | (.error e, w) => (.error e, w)
      | (.ok (tr, sc), w) =>
        match parseTuf parsers tr sc with
        | .error e => (.error e, w)
        | .ok _ => (.ok (), w)

/-- `Error.log_and_exit` (`/repo/sigstore/errors.py:33-49`) -/
def logAndExit (verbose : Bool) (e : Exc) : Exc := if verbose then e else .systemExit 1

/-- the `except Error` of `main` (`_cli.py:666-667`) -/
def mainHandler {α : Type} (verbose : Bool) : Py α → Py α
  | .ok a => .ok a
  | .error e => if e.isSigstoreError then .error (logAndExit verbose e) else .error e

/-- exit status of the process: an uncaught exception other than `SystemExit` gives 1 -/
def exitStatus {α : Type} : Py α → Nat
  | .ok _ => 0
  | .error (.systemExit n) => n
  | .error _ => 1

end Sigstore.Cli
