import Verif.Model.CliVerify

/-!
# Model of the entry points of the library for verification (`/repo/sigstore/verify/verifier.py:99-124`, `/repo/sigstore/models.py`)
-/

namespace Sigstore.Library

open Sigstore.Trust Sigstore.Cli Sigstore.Tuf

/-- `ClientTrustConfig.from_tuf` with the parsing of what TUF returned (`models.py:951-980`) -/
def trustConfigFromTuf (env : Tuf.Env) (parsers : TrustParsers) (url : Str) (offline : Bool) (w : Tuf.World) :
    Py LoadedConfig × Tuf.World :=
  match fromTuf env url offline none w with
  | (.error e, w) => (.error e, w)
  | (.ok (tr, sc), w) =>
    match parseTuf parsers tr sc with
    | .error e => (.error e, w)
    | .ok (mt, root, cfg) => (.ok ⟨mt, root, cfg, none⟩, w)

/-- `ClientTrustConfig.production` (`models.py:927-937`) -/
def productionConfig (env : Tuf.Env) (parsers : TrustParsers) (offline : Bool) (w : Tuf.World) : Py LoadedConfig × Tuf.World :=
  trustConfigFromTuf env parsers defaultTufUrl offline w

/-- `ClientTrustConfig.staging` (`models.py:939-949`) -/
def stagingConfig (env : Tuf.Env) (parsers : TrustParsers) (offline : Bool) (w : Tuf.World) : Py LoadedConfig × Tuf.World :=
  trustConfigFromTuf env parsers stagingTufUrl offline w

/-- `cls(trusted_root=config.trusted_root)` (`verifier.py:108-111,121-124`) -/
def verifierFor (now : Time) : Py LoadedConfig × Tuf.World → Py Verifier × Tuf.World
  | (.error e, w) => (.error e, w)
  | (.ok config, w) =>
    match config.trustedRoot with
    | .error e => (.error e, w)
    | .ok root => (Verifier.init now root, w)

/-- `Verifier.production` (`verifier.py:98-111`) -/
def production (env : Tuf.Env) (parsers : TrustParsers) (now : Time) (offline : Bool) (w : Tuf.World) : Py Verifier × Tuf.World :=
  verifierFor now (productionConfig env parsers offline w)

/-- `Verifier.staging` (`verifier.py:113-124`) -/
def staging (env : Tuf.Env) (parsers : TrustParsers) (now : Time) (offline : Bool) (w : Tuf.World) : Py Verifier × Tuf.World :=
  verifierFor now (stagingConfig env parsers offline w)

/-- `Bundle.from_json` (`models.py:539-548`); the parameter includes the translation of `ValueError` -/
def bundleFromJson (venv : VerifyEnv) (raw : Bytes) : Py Bundle :=
  match venv.parseBundle raw with
  | .error e => .error e
  | .ok m => Bundle.init venv.env m

/-- The program in the documentation of the library (`/repo/sigstore/verify/__init__.py:15-44`), with `verify_artifact` for the
`verify` that does not exist: the contents of a file and of a bundle, and the production or the staging instance. -/
def verifyFile (venv : VerifyEnv) (fs : Fs) (now : Time) (useStaging offline : Bool) (file bundle : Path) (policy : Cert → Py Unit)
    (w : Tuf.World) : Py Unit :=
  match fs.read file with
  | .error e => .error e
  | .ok input =>
    match fs.read bundle with
    | .error e => .error e
    | .ok raw =>
      match bundleFromJson venv raw with
      | .error e => .error e
      | .ok b =>
        match (if useStaging then staging venv.tuf venv.parsers now offline w
          else production venv.tuf venv.parsers now offline w).1 with
        | .error e => .error e
        | .ok v => verifyArtifact venv.env now v (.bytes input) b policy

/-- The same for an attestation, with `verify_dsse`. -/
def verifyAttestation (venv : VerifyEnv) (fs : Fs) (now : Time) (useStaging offline : Bool) (bundle : Path)
    (policy : Cert → Py Unit) (w : Tuf.World) : Py (Str × Bytes) :=
  match fs.read bundle with
  | .error e => .error e
  | .ok raw =>
    match bundleFromJson venv raw with
    | .error e => .error e
    | .ok b =>
      match (if useStaging then staging venv.tuf venv.parsers now offline w
        else production venv.tuf venv.parsers now offline w).1 with
      | .error e => .error e
      | .ok v => verifyDsse venv.env now v b policy

end Sigstore.Library
