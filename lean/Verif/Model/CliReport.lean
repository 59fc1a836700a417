import Verif.Model.CliVerify
import Verif.Model.Args

/-!
# Model of what `sigstore verify` writes (`/repo/sigstore/_cli.py:62-71,634-667,1139-1213`, `/repo/sigstore/errors.py:33-49`,
`/repo/sigstore/hashes.py:59-63`)

Left out: records below the level `WARNING`, the warning about bundles with the old name (`_cli.py:1017`), what argparse writes
before it exits, and failures of writing.
-/

namespace Sigstore.Cli

open Sigstore.Trust Sigstore.Dsse

/-- `str(p)` of a `pathlib` path -/
def Path.str (p : Path) : Str :=
  if p.absolute then '/' :: List.intercalate ['/'] p.parts
  else if p.parts = [] then ['.'] else List.intercalate ['/'] p.parts

/-- `HashAlgorithm.X.value` of `sigstore_models`, the names of the protocol buffers -/
def algorithmName : HashAlgorithm → Str
  | .unspecified => "HASH_ALGORITHM_UNSPECIFIED".toList
  | .sha2_256 => "SHA2_256".toList
  | .sha2_384 => "SHA2_384".toList
  | .sha2_512 => "SHA2_512".toList
  | .sha3_256 => "SHA3_256".toList
  | .sha3_384 => "SHA3_384".toList

/-- `Hashed.__str__` (`hashes.py:59-63`) -/
def hashedStr (h : Hashed) : Str := algorithmName h.algorithm ++ ':' :: hexEncode h.digest

/-- `f"{file_or_digest}"` (`_cli.py:1150,1159,1203,1212`) -/
def VerifyInput.str : VerifyInput → Str
  | .file p => Path.str p
  | .digest h => hashedStr h

/-- one byte in `repr` of a Python `bytes` object, inside quotes `q` -/
def reprByte (q : Char) (b : UInt8) : Str :=
  if b.toNat = q.toNat ∨ b = 0x5c then ['\\', Char.ofNat b.toNat]
  else if b = 0x09 then ['\\', 't']
  else if b = 0x0a then ['\\', 'n']
  else if b = 0x0d then ['\\', 'r']
  else if b < 0x20 ∨ b ≥ 0x7f then '\\' :: 'x' :: hexEncode [b]
  else [Char.ofNat b.toNat]

/-- `str(b)` of a Python `bytes` object (`_cli.py:1205` prints one): double quotes only if there are single but no double
quotes inside -/
def bytesRepr (bs : Bytes) : Str :=
  let q := if (0x27 : UInt8) ∈ bs ∧ (0x22 : UInt8) ∉ bs then '"' else '\''
  'b' :: q :: (bs.flatMap (reprByte q) ++ [q])

/-- the message of a log record: a text, or what `log_and_exit` logs (`errors.py:36-42`): the diagnostics of an exception and
how to see or that one will see the exception.  (Simplification: the text of diagnostics is not modelled.) -/
inductive LogMsg where
  | text (s : Str)
  | diagnostics (e : Exc) (raised : Bool)
deriving DecidableEq, Repr

/-- something that is written: a line to standard output, a line to standard error, or a log record of some level -/
inductive Said where
  | out (line : Str)
  | err (line : Str)
  | log (level : Nat) (msg : LogMsg)
deriving DecidableEq, Repr

/-- `log_and_exit` (`errors.py:33-49`): its record, which has the level `ERROR`, comes before it raises or exits -/
def reportSaid (verbose : Bool) (e : Exc) : Said := .log 40 (.diagnostics e verbose)

/-- the handler of a failed verification (`_cli.py:1153-1160,1206-1213`) -/
def failSaid (verbose : Bool) (i : VerifyInput) (e : Exc) : List Said :=
  (if e = .certValidation then
    [.log 30 (.text "A certificate chain was not valid, are you using the correct Sigstore instance?".toList)] else []) ++
  [.log 40 (.text ("FAIL: ".toList ++ i.str)), reportSaid verbose e]

/-- what is printed of a statement: `verify identity` decodes its bytes (`_cli.py:1151-1152`), `verify github` does not
(`_cli.py:1204-1205`) -/
def statementSaid (decode : Bool) : Option Statement → Py (List Said)
  | none => .ok []
  | some s =>
    if decode then
      match utf8Decode s.contents with
      | none => .error .unicodeDecode
      | some t => .ok [.out t]
    else .ok [.out (bytesRepr s.contents)]

/-- `verifyLoop` with what it writes (`_cli.py:1142-1160,1199-1213`) -/
def verifyLoopSaid (venv : VerifyEnv) (now : Time) (v : Verifier) (policy : Cert → Py Unit) (decode verbose : Bool) :
    List (VerifyInput × Hashed × Bundle) → Py Unit × List Said
  | [] => (.ok (), [])
  | (i, h, b) :: rest =>
    match verifyCommonCli venv now v h b policy with
    | .error e => if e.isSigstoreError then (.error (logAndExit verbose e), failSaid verbose i e) else (.error e, [])
    | .ok stmt =>
      match statementSaid decode stmt with
      | .error e => (.error e, [.err ("OK: ".toList ++ i.str)])
      | .ok lines =>
        match verifyLoopSaid venv now v policy decode verbose rest with
        | (r, said) => (r, .err ("OK: ".toList ++ i.str) :: (lines ++ said))

/-- `verifyCommand` with what it writes -/
def verifyCommandSaid (venv : VerifyEnv) (fs : Fs) (now : Time) (cmd : VerifyCommand) (verbose : Bool) (args : VerifyArgs)
    (w : VerifyWorld) : Py Unit × VerifyWorld × List Said :=
  match cmd.policy with
  | .error e => (.error e, w, [])
  | .ok policy =>
    match collectState venv fs now args w with
    | (.error e, w) => (.error e, w, [])
    | (.ok (v, items), w) =>
      match verifyLoopSaid venv now v policy.verify cmd.decodes verbose items with
      | (r, said) => (r, w, said)

/-- what the `except Error` of `main` writes (`_cli.py:666-667`) -/
def handlerSaid (verbose : Bool) : Py Unit → List Said
  | .ok () => []
  | .error e => if e.isSigstoreError then [reportSaid verbose e] else []

/-- `verifyMain` with what it writes -/
def verifyMainSaid (venv : VerifyEnv) (fs : Fs) (now : Time) (cmd : VerifyCommand) (verbose : Bool) (positional : List Str)
    (certificate signature bundle : Option Path) (trust : TrustArgs) (w : VerifyWorld) :
    Py Unit × VerifyWorld × List Said :=
  match positional with
  | [] => (.error (.systemExit 2), w, [])
  | _ :: _ =>
    match parseInputs fs positional with
    | .error e => (.error e, w, [])
    | .ok inputs =>
      match verifyCommandSaid venv fs now cmd verbose ⟨inputs, certificate, signature, bundle, trust⟩ w with
      | (r, w, said) => (mainHandler verbose r, w, said ++ handlerSaid verbose r)

/-! ## Logging -/

/-- the level names of Python's `logging` -/
def levelByName (s : Str) : Option Nat :=
  if s = "CRITICAL".toList then some 50
  else if s = "FATAL".toList then some 50
  else if s = "ERROR".toList then some 40
  else if s = "WARN".toList then some 30
  else if s = "WARNING".toList then some 30
  else if s = "INFO".toList then some 20
  else if s = "DEBUG".toList then some 10
  else if s = "NOTSET".toList then some 0
  else none

/-- `_package_logger.setLevel(os.environ.get("SIGSTORE_LOGLEVEL", "INFO").upper())` when `_cli.py` is imported
(`_cli.py:71`); `upper` is `str.upper`, and an unknown name is a `ValueError` -/
def importLevel (upper : Str → Str) (loglevel : Option Str) : Py Nat :=
  match levelByName (upper (loglevel.getD "INFO".toList)) with
  | none => .error .valueError
  | some n => .ok n

/-- the effective level of the logger of `_cli.py` after the beginning of `main` (`_cli.py:634-637`): that of the package, or,
if it has none, that of the root logger, which is `WARNING` at first -/
def effectiveLevel (package verbosity : Nat) : Nat :=
  let package := if verbosity ≥ 1 then 10 else package
  let root := if verbosity ≥ 2 then 10 else 30
  if package = 0 then root else package

/-- whether something is really written -/
def Said.shown (level : Nat) : Said → Bool
  | .out _ => true
  | .err _ => true
  | .log l _ => decide (l ≥ level)

/-- a run of `sigstore verify`, with the import of `_cli.py`, and what it really writes -/
def verifyProgram (upper : Str → Str) (loglevel : Option Str) (venv : VerifyEnv) (fs : Fs) (now : Time) (cmd : VerifyCommand)
    (verbosity : Nat) (positional : List Str) (certificate signature bundle : Option Path) (trust : TrustArgs)
    (w : VerifyWorld) : Py Unit × VerifyWorld × List Said :=
  match importLevel upper loglevel with
  | .error e => (.error e, w, [])
  | .ok level =>
    match verifyMainSaid venv fs now cmd (decide (verbosity ≥ 1)) positional certificate signature bundle trust w with
    | (r, w, said) => (r, w, said.filter (Said.shown (effectiveLevel level verbosity)))

end Sigstore.Cli
