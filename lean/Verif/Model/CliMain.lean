import Verif.Model.Args
import Verif.Model.CliSign

/-!
# Model of `main` and of the commands that are not modelled elsewhere (`/repo/sigstore/_cli.py:627-694,1307-1353`)

What is printed is only modelled for `get-identity-token` and `fix-bundle`, whose results are printed.
-/

namespace Sigstore.Cli

open Sigstore.Trust Sigstore.LogEntry Sigstore.Config Sigstore.Dsse Sigstore.Signing

/-- the libraries of all commands -/
structure MainLibs where
  sign : SignLibs
  /-- `sigstore_models...Bundle.from_json` -/
  parseBundle : Bytes → Py BundleMsg
  /-- `load_pem_x509_certificate`; `none` is a `ValueError` -/
  loadPem : Bytes → Option Cert
  /-- `verifier._rekor.log.entries.retrieve.post` -/
  retrieve : HashedrekordBody → Py (Option LogEntry)
  /-- `rekor.log.entries.get(log_index=...)` of the staging (`true`) or the production log -/
  fetch : Bool → Int → Py LogEntry
  /-- `int(...)`; `none` is a `ValueError`.  Simplification: negative numbers, which are not the version of any log, are
  rejected here. -/
  int : Str → Option Nat
  /-- the encoding that the locale selects; `none` is a `UnicodeEncodeError` -/
  localeEncode : Str → Option Bytes

/-- everything a command changes: the state of the signing commands, the queries sent to Rekor, and what is printed -/
structure MainState where
  sign : SignState
  queries : List HashedrekordBody
  stdout : List Str

/-- the part of the libraries that `sigstore verify` uses -/
def MainLibs.verify (libs : MainLibs) : VerifyEnv :=
  ⟨libs.sign.env, libs.sign.tuf, libs.sign.parsers, libs.parseBundle, libs.loadPem, libs.sign.codec, libs.retrieve⟩

/-! ## Options as the commands use them -/

/-- `type=int` of `--rekor-version` (`_cli.py:303,370`); an error makes argparse exit with status 2 -/
def rekorVersionArg (libs : MainLibs) (ns : Namespace) : Py (Option Nat) :=
  match ns.text "rekor_version" with
  | none => .ok none
  | some s =>
    match libs.int s with
    | none => .error (.systemExit 2)
    | some n => .ok (some n)

/-- what `_get_trust_config` reads (`_cli.py:1263-1274`) -/
def trustArgsOf (ns : Namespace) (rekorVersion : Option Nat) : TrustArgs :=
  ⟨ns.path "trust_config", ns.text "instance", ns.flag "staging", ns.flag "offline", rekorVersion⟩

/-- what `_sign_common` and `_get_identity` read (`_cli.py:764-773,1282-1303`) -/
def identityArgsOf (ns : Namespace) : IdentityArgs :=
  ⟨ns.text "identity_token", (ns.text "oidc_client_id").getD [], ns.text "oidc_client_secret",
   ns.flag "oidc_disable_ambient_providers", ns.text "oidc_issuer", ns.flag "oauth_force_oob"⟩

/-- what `_sign` reads (`_cli.py:868-942`) -/
def signArgsOf (ns : Namespace) (positional : List Str) : SignArgs :=
  ⟨positional.map Path.ofStr, ns.path "signature", ns.path "certificate", ns.path "bundle", ns.path "output_directory",
   ns.flag "no_default_files", ns.flag "overwrite"⟩

/-- what `_attest` reads (`_cli.py:813-858`); `choices` and `type` of `--predicate-type` (`_cli.py:326-329`) are enforced by
argparse with status 2.  The options are required, so the absent cases do not arise. -/
def attestArgsOf (ns : Namespace) (positional : List Str) : Py AttestArgs :=
  match ns.path "predicate", ns.text "predicate_type" with
  | some predicate, some type_ =>
    if type_ = slsaV02 ∨ type_ = slsaV10 then
      .ok ⟨positional.map Path.ofStr, predicate, type_, ns.path "bundle", ns.flag "overwrite"⟩
    else .error (.systemExit 2)
  | _, _ => .error (.systemExit 2)

/-- what `_verify_github` reads (`_cli.py:1163-1195`) -/
def githubArgsOf (ns : Namespace) : GithubArgs :=
  ⟨ns.text "cert_identity", ns.text "workflow_trigger", ns.text "workflow_sha", ns.text "workflow_name",
   ns.text "workflow_repository", ns.text "workflow_ref"⟩

/-! ## The other commands -/

/-- `_get_identity_token` (`_cli.py:686-694`); an identity is always truthy -/
def getIdentityTokenMain (libs : MainLibs) (now : Time) (trust : TrustArgs) (ident : IdentityArgs) (s : MainState) :
    Py Unit × MainState :=
  match getTrustConfig (libs.sign.disk.fs s.sign.disk) libs.sign.tuf libs.sign.parsers trust s.sign.tuf with
  | (.error e, t) => (.error e, { s with sign := { s.sign with tuf := t } })
  | (.ok cfg, t) =>
    let s := { s with sign := { s.sign with tuf := t } }
    match getIdentity libs.sign.identity now ident cfg with
    | .error e => (.error e, s)
    | .ok token => (.ok (), { s with stdout := s.stdout ++ [token.raw] })

/-- `_update_trust_root` (`_cli.py:1346-1353`) -/
def updateTrustRootMain (libs : MainLibs) (now : Time) (trust : TrustArgs) (s : MainState) : Py Unit × MainState :=
  match getTrustConfig (libs.sign.disk.fs s.sign.disk) libs.sign.tuf libs.sign.parsers trust s.sign.tuf with
  | (.error e, t) => (.error e, { s with sign := { s.sign with tuf := t } })
  | (.ok cfg, t) =>
    let s := { s with sign := { s.sign with tuf := t } }
    match cfg.trustedRoot with
    | .error e => (.error e, s)
    | .ok root =>
      match getFulcioCerts now root with
      | .error e => (.error e, s)
      | .ok _ => (.ok (), s)

/-- all bytes of a file written from the start, until a write fails -/
def writeBytes (e : DiskEnv) (p : Path) : Nat → Bytes → Disk → Py Unit × Disk
  | n, [], d => if e.canPut p n then (.ok (), d) else (.error .osError, d)
  | n, b :: bs, d => if e.canPut p n then writeBytes e p (n + 1) bs (e.writeByte d p n b) else (.error .osError, d)

/-- `p.write_text(text)` without an encoding: the file is truncated before the text is encoded -/
def writeText (e : DiskEnv) (encode : Str → Option Bytes) (p : Path) (text : Str) (d : Disk) : Py Unit × Disk :=
  match e.openW d p with
  | .error x => (.error x, d)
  | .ok d =>
    match encode text with
    | none => (.error .valueError, d)
    | some data => writeBytes e p 0 data d

/-- `_fix_bundle` (`_cli.py:1307-1343`) -/
def fixBundleMain (libs : MainLibs) (path : Path) (staging upgrade inPlace : Bool) (s : MainState) : Py Unit × MainState :=
  match libs.sign.disk.read s.sign.disk path with
  | .error e => (.error e, s)
  | .ok bytes =>
    match libs.parseBundle bytes with
    | .error e => (.error e, s)
    | .ok m =>
      match fixBundle libs.sign.env (libs.fetch staging) upgrade m with
      | .error e => (.error e, s)
      | .ok b =>
        if inPlace then
          match writeText libs.sign.disk libs.localeEncode path (libs.sign.toJson b) s.sign.disk with
          | (r, d) => (r, { s with sign := { s.sign with disk := d } })
        else (.ok (), { s with stdout := s.stdout ++ [libs.sign.toJson b] })

/-! ## `main` -/

/-- a result of a command that changes the state of `sigstore verify` -/
def MainState.ofVerify (s : MainState) (w : VerifyWorld) : MainState :=
  { s with sign := { s.sign with tuf := w.tuf }, queries := w.queries }

/-- the dispatch of `main` (`_cli.py:645-665`).  `verifyMain` converts the positional arguments and handles exceptions itself. -/
def dispatch (libs : MainLibs) (o : SignOracle) (ns : Namespace) (line : CommandLine) (s : MainState) :
    Option (Py Unit) × MainState :=
  let verbose := decide (ns.verbosity ≥ 1)
  match rekorVersionArg libs ns with
  | .error e => (some (.error e), s)
  | .ok version =>
    let trust := trustArgsOf ns version
    let verify (cmd : VerifyCommand) : Option (Py Unit) × MainState :=
      match verifyMain libs.verify (libs.sign.disk.fs s.sign.disk) o.now cmd verbose line.positional (ns.path "certificate")
          (ns.path "signature") (ns.path "bundle") trust ⟨s.sign.tuf, s.queries⟩ with
      | (r, w) => (some r, s.ofVerify w)
    match line.command with
    | .sign =>
      match signMain libs.sign o trust (identityArgsOf ns) (signArgsOf ns line.positional) s.sign with
      | (r, t) => (r.map (mainHandler verbose), { s with sign := t })
    | .attest =>
      match attestArgsOf ns line.positional with
      | .error e => (some (.error e), s)
      | .ok args =>
        match attestMain libs.sign o trust (identityArgsOf ns) args s.sign with
        | (r, t) => (r.map (mainHandler verbose), { s with sign := t })
    | .verifyIdentity =>
      verify (.identity ((ns.text "cert_identity").getD []) ((ns.text "cert_oidc_issuer").getD []))
    | .verifyGithub => verify (.github (githubArgsOf ns))
    | .getIdentityToken =>
      match getIdentityTokenMain libs o.now trust (identityArgsOf ns) s with
      | (r, s) => (some (mainHandler verbose r), s)
    | .trustInstance =>
      match line.positional with
      | [root] =>
        match trustInstance (libs.sign.disk.fs s.sign.disk) libs.sign.tuf libs.sign.parsers (Path.ofStr root)
            (ns.text "instance") s.sign.tuf with
        | (r, t) => (some (mainHandler verbose r), { s with sign := { s.sign with tuf := t } })
      | _ => (some (.error (.systemExit 2)), s)
    | .fixBundle =>
      match ns.path "bundle" with
      | none => (some (.error (.systemExit 2)), s)
      | some path =>
        match fixBundleMain libs path (ns.flag "staging") (ns.flag "upgrade_version") (ns.flag "in_place") s with
        | (r, s) => (some (mainHandler verbose r), s)
    | .updateTrustRoot =>
      match updateTrustRootMain libs o.now trust s with
      | (r, s) => (some (mainHandler verbose r), s)

/-- `main` (`_cli.py:627-667`); the result is `none` if the schedule ends before the threads of a signing command do -/
def main (libs : MainLibs) (o : SignOracle) (environ : Environ) (line : CommandLine) (s : MainState) :
    Option (Py Unit) × MainState :=
  match parseArgs environ line with
  | .error e => (some (.error e), s)
  | .ok ns => dispatch libs o ns line s

end Sigstore.Cli
