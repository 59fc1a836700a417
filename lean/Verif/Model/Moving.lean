import Verif.Model.CliVerify

/-!
# Model of `sigstore verify` while others change files (`/repo/sigstore/_cli.py:165-186,947-1251`)

`Model.CliVerify` assumes that files do not change during a command.  Here every access (`is_file`, `open`, `read_bytes`,
`read_text`) may find another file system: `fs n` is what the access number `n` finds.  The functions also return the accesses so
far.  A function of `Model.CliVerify` that accesses the file system once is applied to what this access finds.  Reading a file is
one access; if the file changes while it is read, what is read may be a content that the file never had (`Model/Torn.lean`).
-/

namespace Sigstore.Cli.Moving

open Sigstore.Trust Sigstore.LogEntry Sigstore.Dsse Sigstore.Tuf

/-- an access -/
inductive Access where
  /-- `p.is_file()` -/
  | test (p : Path)
  /-- reading `p` as a whole -/
  | read (p : Path)
deriving DecidableEq, Repr

/-- the accesses so far -/
abbrev Log := List Access

/-- `p.is_file()` -/
def isFile (fs : Nat → Fs) (l : Log) (p : Path) : Bool × Log := ((fs l.length).isFile p, l ++ [.test p])

/-- `file_or_digest` (`_cli.py:165-178`) -/
def fileOrDigest (fs : Nat → Fs) (l : Log) (arg : Str) : Py VerifyInput × Log :=
  (Cli.fileOrDigest (fs l.length) arg, l ++ [.test (Path.ofStr arg)])

/-- the type conversion of the positional arguments by argparse -/
def parseInputs (fs : Nat → Fs) : Log → List Str → Py (List VerifyInput) × Log
  | l, [] => (.ok [], l)
  | l, a :: as =>
    match fileOrDigest fs l a with
    | (.error _, l) => (.error (.systemExit 2), l)
    | (.ok i, l) =>
      match parseInputs fs l as with
      | (.error e, l) => (.error e, l)
      | (.ok is, l) => (.ok (i :: is), l)

/-- the bundle used for a file without `--bundle` (`_cli.py:1005-1031`); `sig` and `cert` are tested for a warning only -/
def defaultBundle (fs : Nat → Fs) (l : Log) (file sig cert : Path) : Py Path × Log :=
  let legacy := sibling file ".sigstore".toList
  let bundle := sibling file ".sigstore.json".toList
  let second (l : Log) : Py Path × Log :=
    match isFile fs l bundle with
    | (false, l) => (.ok bundle, l)
    | (true, l) =>
      match isFile fs l legacy with
      | (false, l) => (.ok bundle, l)
      | (true, l) => (.error (.systemExit 2), l)
  match isFile fs l bundle with
  | (true, l) => second l
  | (false, l) =>
    match isFile fs l legacy with
    | (false, l) => second l
    | (true, l) =>
      match isFile fs l cert with
      | (false, l) => (.ok legacy, l)
      | (true, l) => (.ok legacy, (isFile fs l sig).2)

/-- the body of the loop over the files (`_cli.py:991-1054`) -/
def fileMaterials (fs : Nat → Fs) (args : VerifyArgs) (l : Log) (file : Path) : Py Materials × Log :=
  match isFile fs l file with
  | (false, l) => (.error (.systemExit 2), l)
  | (true, l) =>
    let sig := args.signature.getD (sibling file ".sig".toList)
    let cert := args.certificate.getD (sibling file ".crt".toList)
    match (match args.bundle with | some b => ((.ok b, l) : Py Path × Log) | none => defaultBundle fs l file sig cert) with
    | (.error e, l) => (.error e, l)
    | (.ok bundle, l) =>
      if args.signature.isSome || args.certificate.isSome then
        match isFile fs l sig with
        | (a, l) =>
          match isFile fs l cert with
          | (b, l) => (if !a || !b then .error (.systemExit 2) else .ok (.unbundled cert sig), l)
      else
        match isFile fs l bundle with
        | (a, l) => (if !a then .error (.systemExit 2) else .ok (.bundled bundle), l)

/-- the loop over the files; the result is the dictionary `input_map` -/
def fileLoop (fs : Nat → Fs) (args : VerifyArgs) :
    Dict VerifyInput Materials → Log → List VerifyInput → Py (Dict VerifyInput Materials) × Log
  | map, l, [] => (.ok map, l)
  | map, l, .digest _ :: rest => fileLoop fs args map l rest
  | map, l, .file p :: rest =>
    match fileMaterials fs args l p with
    | (.error e, l) => (.error e, l)
    | (.ok m, l) => fileLoop fs args (map.set (.file p) m) l rest

/-- the materials of a single digest (`_cli.py:1056-1091`) -/
def digestMaterials (fs : Nat → Fs) (args : VerifyArgs) (l : Log) : Py Materials × Log :=
  if args.signature.isSome || args.certificate.isSome then
    match args.signature with
    | none => (.error .attributeError, l)
    | some sig =>
      match isFile fs l sig with
      | (a, l) =>
        match args.certificate with
        | none => (.error .attributeError, l)
        | some cert =>
          match isFile fs l cert with
          | (b, l) => (if !a || !b then .error (.systemExit 2) else .ok (.unbundled cert sig), l)
  else
    match args.bundle with
    | none => (.error .attributeError, l)
    | some b =>
      match isFile fs l b with
      | (a, l) => (if !a then .error (.systemExit 2) else .ok (.bundled b), l)

/-- the consistency checks and the map of inputs (`_cli.py:958-1091`) -/
def inputMap (fs : Nat → Fs) (args : VerifyArgs) (l : Log) : Py (Dict VerifyInput Materials) × Log :=
  let hasCert := args.certificate.isSome
  let hasSig := args.signature.isSome
  let hasBundle := args.bundle.isSome
  if (hasCert || hasSig || hasBundle) && decide (args.inputs.length > 1) then (.error (.systemExit 2), l)
  else if hasBundle && (hasCert || hasSig) then (.error (.systemExit 2), l)
  else if args.inputs.any VerifyInput.isDigest && (!hasBundle && !(hasCert && hasSig)) then (.error (.systemExit 2), l)
  else if args.trust.offline && (hasCert || hasSig) then (.error (.systemExit 2), l)
  else
    match fileLoop fs args [] l args.inputs with
    | (.error e, l) => (.error e, l)
    | (.ok [], l) =>
      match args.inputs with
      | [input] =>
        match digestMaterials fs args l with
        | (.error e, l) => (.error e, l)
        | (.ok m, l) => (.ok [(input, m)], l)
      | _ => (.error (.systemExit 2), l)
    | (.ok (x :: xs), l) => (.ok (x :: xs), l)

/-- `_get_trust_config` (`_cli.py:1254-1276`) -/
def getTrustConfig (fs : Nat → Fs) (env : Tuf.Env) (parsers : TrustParsers) (args : TrustArgs) (l : Log) (w : Tuf.World) :
    Py LoadedConfig × Log × Tuf.World :=
  match Cli.getTrustConfig (fs l.length) env parsers args w with
  | (r, w) => (r, l ++ (match trustSource args with | .file p => [.read p] | .tuf _ => []), w)

/-- digest of an input (`_cli.py:1098-1102`) -/
def inputDigest (c : Crypto) (fs : Nat → Fs) (l : Log) (i : VerifyInput) : Py Hashed × Log :=
  (Cli.inputDigest c (fs l.length) i, l ++ (match i with | .digest _ => [] | .file p => [.read p]))

/-- the bundle for an input (`_cli.py:1104-1131`) -/
def loadMaterials (venv : VerifyEnv) (fs : Nat → Fs) (h : Hashed) (l : Log) (w : VerifyWorld) :
    Materials → Py Bundle × Log × VerifyWorld
  | .bundled path =>
    match Cli.loadMaterials venv (fs l.length) h w (.bundled path) with
    | (r, w) => (r, l ++ [.read path], w)
  | .unbundled certPath sigPath =>
    match (fs l.length).read certPath with
    | .error e => (.error e, l ++ [.read certPath], w)
    | .ok pem =>
      match venv.loadPem pem with
      | none => (.error .valueError, l ++ [.read certPath], w)
      | some cert =>
        let l := l ++ [.read certPath]
        let text := readText (fs l.length) sigPath
        let l := l ++ [.read sigPath]
        match text with
        | .error e => (.error e, l, w)
        | .ok text =>
          match b64Decode text with
          | .error e => (.error e, l, w)
          | .ok sig =>
            match hashedrekordFromParts cert sig h with
            | .error e => (.error e, l, w)
            | .ok body =>
              let w := { w with queries := w.queries ++ [body] }
              match venv.retrieve body with
              | .error e => (.error e, l, w)
              | .ok none => (.error (.systemExit 2), l, w)
              | .ok (some entry) => (Bundle.fromSignature venv.env cert sig entry, l, w)

/-- the loop that loads all materials (`_cli.py:1096-1134`) -/
def loadAll (venv : VerifyEnv) (fs : Nat → Fs) :
    Log → VerifyWorld → Dict VerifyInput Materials → Py (List (VerifyInput × Hashed × Bundle)) × Log × VerifyWorld
  | l, w, [] => (.ok [], l, w)
  | l, w, (input, m) :: rest =>
    match inputDigest venv.env.crypto fs l input with
    | (.error e, l) => (.error e, l, w)
    | (.ok h, l) =>
      match loadMaterials venv fs h l w m with
      | (.error e, l, w) => (.error e, l, w)
      | (.ok b, l, w) =>
        match loadAll venv fs l w rest with
        | (.error e, l, w) => (.error e, l, w)
        | (.ok items, l, w) => (.ok ((input, h, b) :: items), l, w)

/-- `_collect_verification_state` (`_cli.py:947-1136`) -/
def collectState (venv : VerifyEnv) (fs : Nat → Fs) (now : Time) (args : VerifyArgs) (l : Log) (w : VerifyWorld) :
    Py (Verifier × List (VerifyInput × Hashed × Bundle)) × Log × VerifyWorld :=
  match inputMap fs args l with
  | (.error e, l) => (.error e, l, w)
  | (.ok map, l) =>
    match getTrustConfig fs venv.tuf venv.parsers args.trust l w.tuf with
    | (.error e, l, t) => (.error e, l, { w with tuf := t })
    | (.ok config, l, t) =>
      let w := { w with tuf := t }
      match config.trustedRoot with
      | .error e => (.error e, l, w)
      | .ok root =>
        match Verifier.init now root with
        | .error e => (.error e, l, w)
        | .ok v =>
          match loadAll venv fs l w map with
          | (.error e, l, w) => (.error e, l, w)
          | (.ok items, l, w) => (.ok (v, items), l, w)

/-- `_verify_identity` (`_cli.py:1139-1160`) and `_verify_github` (`_cli.py:1163-1213`) -/
def verifyCommand (venv : VerifyEnv) (fs : Nat → Fs) (now : Time) (cmd : VerifyCommand) (verbose : Bool) (args : VerifyArgs)
    (l : Log) (w : VerifyWorld) : Py Unit × Log × VerifyWorld :=
  match cmd.policy with
  | .error e => (.error e, l, w)
  | .ok policy =>
    match collectState venv fs now args l w with
    | (.error e, l, w) => (.error e, l, w)
    | (.ok (v, items), l, w) => (verifyLoop venv now v policy.verify cmd.decodes verbose items, l, w)

/-- `sigstore verify ...` (`_cli.py:626-667`) -/
def verifyMain (venv : VerifyEnv) (fs : Nat → Fs) (now : Time) (cmd : VerifyCommand) (verbose : Bool) (positional : List Str)
    (certificate signature bundle : Option Path) (trust : TrustArgs) (w : VerifyWorld) : Py Unit × Log × VerifyWorld :=
  match positional with
  | [] => (.error (.systemExit 2), [], w)
  | _ :: _ =>
    match parseInputs fs [] positional with
    | (.error e, l) => (.error e, l, w)
    | (.ok inputs, l) =>
      match verifyCommand venv fs now cmd verbose ⟨inputs, certificate, signature, bundle, trust⟩ l w with
      | (r, l, w) => (mainHandler verbose r, l, w)

end Sigstore.Cli.Moving
