import Verif.Model.CliTrust
import Verif.Model.CliPolicy
import Verif.Model.Verifier

/-!
# Model of `sigstore verify` (`/repo/sigstore/_cli.py:165-186,947-1251`)
-/

namespace Sigstore.Cli

open Sigstore.Trust Sigstore.LogEntry Sigstore.Dsse Sigstore.Tuf

/-- a positional argument of `sigstore verify` -/
inductive VerifyInput where
  | file (p : Path)
  | digest (h : Hashed)
deriving DecidableEq, Repr

/-- `file_or_digest` (`_cli.py:165-178`); a `ValueError` here makes argparse exit with status 2 -/
def fileOrDigest (fs : Fs) (arg : Str) : Py VerifyInput :=
  if fs.isFile (Path.ofStr arg) then .ok (.file (Path.ofStr arg))
  else if arg.take 6 = "sha256".toList then
    match hexDecode (arg.drop 7) with
    | none => .error .valueError
    | some digest => if digest.length ≠ 32 then .error .valueError else .ok (.digest ⟨.sha2_256, digest⟩)
  else .error .valueError

/-- the type conversion of the positional arguments by argparse -/
def parseInputs (fs : Fs) : List Str → Py (List VerifyInput)
  | [] => .ok []
  | a :: as =>
    match fileOrDigest fs a with
    | .error _ => .error (.systemExit 2)
    | .ok i =>
      match parseInputs fs as with
      | .error e => .error e
      | .ok is => .ok (i :: is)

/-- the options of `sigstore verify` that select the inputs (`_cli.py:138-199`) -/
structure VerifyArgs where
  inputs : List VerifyInput
  certificate : Option Path
  signature : Option Path
  bundle : Option Path
  trust : TrustArgs
deriving DecidableEq, Repr

/-- `VerificationMaterials` (`_cli.py:81-94`) -/
inductive Materials where
  | unbundled (certificate signature : Path)
  | bundled (bundle : Path)
deriving DecidableEq, Repr

/-- `file.parent / f"{file.name}{suffix}"` -/
def sibling (file : Path) (suffix : Str) : Path := file.parent.join (file.name ++ suffix)

/-- the bundle used for a file without `--bundle` (`_cli.py:1005-1031`) -/
def defaultBundle (fs : Fs) (file : Path) : Py Path :=
  let legacy := sibling file ".sigstore".toList
  let bundle := sibling file ".sigstore.json".toList
  if !fs.isFile bundle && fs.isFile legacy then .ok legacy
  else if fs.isFile bundle && fs.isFile legacy then .error (.systemExit 2)
  else .ok bundle

/-- the body of the loop over the files (`_cli.py:991-1054`) -/
def fileMaterials (fs : Fs) (args : VerifyArgs) (file : Path) : Py Materials :=
  if !fs.isFile file then .error (.systemExit 2)
  else
    let sig := args.signature.getD (sibling file ".sig".toList)
    let cert := args.certificate.getD (sibling file ".crt".toList)
    let bundle : Py Path := match args.bundle with | some b => .ok b | none => defaultBundle fs file
    match bundle with
    | .error e => .error e
    | .ok bundle =>
      if args.signature.isSome || args.certificate.isSome then
        if !fs.isFile sig || !fs.isFile cert then .error (.systemExit 2) else .ok (.unbundled cert sig)
      else
        if !fs.isFile bundle then .error (.systemExit 2) else .ok (.bundled bundle)

/-- the loop over the files; the result is the dictionary `input_map` -/
def fileLoop (fs : Fs) (args : VerifyArgs) (map : Dict VerifyInput Materials) :
    List VerifyInput → Py (Dict VerifyInput Materials)
  | [] => .ok map
  | .digest _ :: rest => fileLoop fs args map rest
  | .file p :: rest =>
    match fileMaterials fs args p with
    | .error e => .error e
    | .ok m => fileLoop fs args (map.set (.file p) m) rest

/-- the materials of a single digest (`_cli.py:1056-1091`).  An absent path makes `.is_file()` fail with an
`AttributeError`. -/
def digestMaterials (fs : Fs) (args : VerifyArgs) : Py Materials :=
  if args.signature.isSome || args.certificate.isSome then
    match args.signature, args.certificate with
    | some sig, some cert =>
      if !fs.isFile sig || !fs.isFile cert then .error (.systemExit 2) else .ok (.unbundled cert sig)
    | _, _ => .error .attributeError
  else
    match args.bundle with
    | none => .error .attributeError
    | some b => if !fs.isFile b then .error (.systemExit 2) else .ok (.bundled b)

/-- `isinstance(x, Hashed)` -/
def VerifyInput.isDigest : VerifyInput → Bool
  | .digest _ => true
  | .file _ => false

/-- the consistency checks and the map of inputs (`_cli.py:958-1091`) -/
def inputMap (fs : Fs) (args : VerifyArgs) : Py (Dict VerifyInput Materials) :=
  let hasCert := args.certificate.isSome
  let hasSig := args.signature.isSome
  let hasBundle := args.bundle.isSome
  if (hasCert || hasSig || hasBundle) && decide (args.inputs.length > 1) then .error (.systemExit 2)
  else if hasBundle && (hasCert || hasSig) then .error (.systemExit 2)
  else if args.inputs.any VerifyInput.isDigest && (!hasBundle && !(hasCert && hasSig)) then .error (.systemExit 2)
  else if args.trust.offline && (hasCert || hasSig) then .error (.systemExit 2)
  else
    match fileLoop fs args [] args.inputs with
    | .error e => .error e
    | .ok [] =>
      match args.inputs with
      | [input] =>
        match digestMaterials fs args with
        | .error e => .error e
        | .ok m => .ok [(input, m)]
      | _ => .error (.systemExit 2)
    | .ok (x :: xs) => .ok (x :: xs)

/-- external functions of the command -/
structure VerifyEnv where
  env : Env
  tuf : Tuf.Env
  parsers : TrustParsers
  /-- `sigstore_models...Bundle.from_json` -/
  parseBundle : Bytes → Py BundleMsg
  /-- `load_pem_x509_certificate`; `none` is a `ValueError` -/
  loadPem : Bytes → Option Cert
  codec : StatementCodec
  /-- `verifier._rekor.log.entries.retrieve.post` -/
  retrieve : HashedrekordBody → Py (Option LogEntry)

/-- the world outside: the TUF library and cache, and the queries sent to Rekor -/
structure VerifyWorld where
  tuf : Tuf.World
  queries : List HashedrekordBody

/-- `materials.signature.read_text(encoding="utf-8")`.  Simplification: newlines are not translated (the base64 decoder
drops them anyway). -/
def readText (fs : Fs) (p : Path) : Py Str :=
  match fs.read p with
  | .error e => .error e
  | .ok b =>
    match utf8Decode b with
    | none => .error .unicodeDecode
    | some s => .ok s

/-- digest of an input (`_cli.py:1098-1102`).  The streaming digest of a file is the digest of its content (C51). -/
def inputDigest (c : Crypto) (fs : Fs) : VerifyInput → Py Hashed
  | .digest h => .ok h
  | .file p =>
    match fs.read p with
    | .error e => .error e
    | .ok b => .ok (sha256Digest c (.bytes b))

/-- the bundle for an input (`_cli.py:1104-1131`) -/
def loadMaterials (venv : VerifyEnv) (fs : Fs) (h : Hashed) (w : VerifyWorld) : Materials → Py Bundle × VerifyWorld
  | .bundled path =>
    match fs.read path with
    | .error e => (.error e, w)
    | .ok b =>
      match venv.parseBundle b with
      | .error e => (.error e, w)
      | .ok m => (Bundle.init venv.env m, w)
  | .unbundled certPath sigPath =>
    match fs.read certPath with
    | .error e => (.error e, w)
    | .ok pem =>
      match venv.loadPem pem with
      | none => (.error .valueError, w)
      | some cert =>
        match readText fs sigPath with
        | .error e => (.error e, w)
        | .ok text =>
          match b64Decode text with
          | .error e => (.error e, w)
          | .ok sig =>
            match hashedrekordFromParts cert sig h with
            | .error e => (.error e, w)
            | .ok body =>
              let w := { w with queries := w.queries ++ [body] }
              match venv.retrieve body with
              | .error e => (.error e, w)
              | .ok none => (.error (.systemExit 2), w)
              | .ok (some entry) => (Bundle.fromSignature venv.env cert sig entry, w)

/-- the loop that loads all materials (`_cli.py:1096-1134`) -/
def loadAll (venv : VerifyEnv) (fs : Fs) (w : VerifyWorld) :
    Dict VerifyInput Materials → Py (List (VerifyInput × Hashed × Bundle)) × VerifyWorld
  | [] => (.ok [], w)
  | (input, m) :: rest =>
    match inputDigest venv.env.crypto fs input with
    | .error e => (.error e, w)
    | .ok h =>
      match loadMaterials venv fs h w m with
      | (.error e, w) => (.error e, w)
      | (.ok b, w) =>
        match loadAll venv fs w rest with
        | (.error e, w) => (.error e, w)
        | (.ok items, w) => (.ok ((input, h, b) :: items), w)

/-- `_collect_verification_state` (`_cli.py:947-1136`) -/
def collectState (venv : VerifyEnv) (fs : Fs) (now : Time) (args : VerifyArgs) (w : VerifyWorld) :
    Py (Verifier × List (VerifyInput × Hashed × Bundle)) × VerifyWorld :=
  match inputMap fs args with
  | .error e => (.error e, w)
  | .ok map =>
    match getTrustConfig fs venv.tuf venv.parsers args.trust w.tuf with
    | (.error e, t) => (.error e, { w with tuf := t })
    | (.ok config, t) =>
      let w := { w with tuf := t }
      match config.trustedRoot with
      | .error e => (.error e, w)
      | .ok root =>
        match Verifier.init now root with
        | .error e => (.error e, w)
        | .ok v =>
          match loadAll venv fs w map with
          | (.error e, w) => (.error e, w)
          | (.ok items, w) => (.ok (v, items), w)

/-- `_verify_common` (`_cli.py:1216-1251`) -/
def verifyCommonCli (venv : VerifyEnv) (now : Time) (v : Verifier) (h : Hashed) (b : Bundle) (policy : Cert → Py Unit) :
    Py (Option Statement) :=
  match b.inner.dsseEnvelope with
  | some e =>
    match envelopeInit e with
    | .error x => .error x
    | .ok _ =>
      match verifyDsse venv.env now v b policy with
      | .error x => .error x
      | .ok (type_, payload) =>
        if type_ ≠ inTotoType then .error .verification
        else
          match Statement.ofBytes venv.codec payload with
          | .error x => .error x
          | .ok stmt =>
            match stmt.matchesDigest h with
            | .error x => .error x
            | .ok false => .error .verification
            | .ok true => .ok (some stmt)
  | none =>
    match verifyArtifact venv.env now v (.hashed h) b policy with
    | .error x => .error x
    | .ok () => .ok none

/-- printing a verified statement: `verify identity` decodes its bytes (`_cli.py:1151`), `verify github` does not
(`_cli.py:1203`) -/
def printStatement (decode : Bool) : Option Statement → Py Unit
  | none => .ok ()
  | some s => if decode then match utf8Decode s.contents with | none => .error .unicodeDecode | some _ => .ok () else .ok ()

/-- the loops of `_verify_identity` (`_cli.py:1139-1160`) and `_verify_github` (`_cli.py:1198-1213`): the first failure ends
the command -/
def verifyLoop (venv : VerifyEnv) (now : Time) (v : Verifier) (policy : Cert → Py Unit) (decode verbose : Bool) :
    List (VerifyInput × Hashed × Bundle) → Py Unit
  | [] => .ok ()
  | (_, h, b) :: rest =>
    match verifyCommonCli venv now v h b policy with
    | .error e => if e.isSigstoreError then .error (logAndExit verbose e) else .error e
    | .ok stmt =>
      match printStatement decode stmt with
      | .error e => .error e
      | .ok () => verifyLoop venv now v policy decode verbose rest

/-- what distinguishes `sigstore verify identity` and `sigstore verify github` -/
inductive VerifyCommand where
  | identity (certIdentity certOidcIssuer : Str)
  | github (args : GithubArgs)
deriving DecidableEq, Repr

/-- the policy of a command -/
def VerifyCommand.policy : VerifyCommand → Py Policy.Policy
  | .identity i iss => .ok (identityPolicy i (some iss))
  | .github a => githubPolicy a

/-- whether a command decodes a statement before it prints it (`_cli.py:1152`, `1205`) -/
def VerifyCommand.decodes : VerifyCommand → Bool
  | .identity _ _ => true
  | .github _ => false

/-- `_verify_identity` (`_cli.py:1139-1160`) and `_verify_github` (`_cli.py:1163-1213`).  (Constructing an identity policy
has no effects, so it does not matter that the first builds it after loading the materials.) -/
def verifyCommand (venv : VerifyEnv) (fs : Fs) (now : Time) (cmd : VerifyCommand) (verbose : Bool) (args : VerifyArgs)
    (w : VerifyWorld) : Py Unit × VerifyWorld :=
  match cmd.policy with
  | .error e => (.error e, w)
  | .ok policy =>
    match collectState venv fs now args w with
    | (.error e, w) => (.error e, w)
    | (.ok (v, items), w) =>
      (verifyLoop venv now v policy.verify cmd.decodes verbose items, w)

/-- `sigstore verify ...`: argument conversion, the command, and the handler of `main` (`_cli.py:626-667`) -/
def verifyMain (venv : VerifyEnv) (fs : Fs) (now : Time) (cmd : VerifyCommand) (verbose : Bool) (positional : List Str)
    (certificate signature bundle : Option Path) (trust : TrustArgs) (w : VerifyWorld) : Py Unit × VerifyWorld :=
  match positional with
  | [] => (.error (.systemExit 2), w)
  | _ :: _ =>
    match parseInputs fs positional with
    | .error e => (.error e, w)
    | .ok inputs =>
      match verifyCommand venv fs now cmd verbose ⟨inputs, certificate, signature, bundle, trust⟩ w with
      | (r, w) => (mainHandler verbose r, w)

end Sigstore.Cli
