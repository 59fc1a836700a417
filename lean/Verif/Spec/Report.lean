import Verif.Spec.CliVerify
import Verif.Model.CliReport
import Mathlib.Data.List.Dedup

/-!
# Specification of what `sigstore verify` reports
-/

namespace Sigstore.Spec

open Sigstore.Trust Sigstore.LogEntry Sigstore.Dsse Sigstore.Cli

/-- the inputs, each once, in the order of their first mention -/
def Mentioned {α : Type} [DecidableEq α] (inputs : List α) : List α := inputs.reverse.dedup.reverse

/-- a text names an input: read as a path it is the file, or it is the digest in hexadecimal after the name of its algorithm -/
inductive Names : Str → VerifyInput → Prop
  | file {s : Str} {p : Path} : s ≠ [] → Path.ofStr s = p → Names s (.file p)
  | digest {s : Str} {d : Bytes} : HexText s d → s.length = 64 → Names ("SHA2_256:".toList ++ s) (.digest ⟨.sha2_256, d⟩)

/-- the inside of a Python `bytes` literal with quotes `q`, and the bytes it stands for -/
inductive LiteralBody (q : Char) : Str → Bytes → Prop
  | nil : LiteralBody q [] []
  | plain {c : Char} {s : Str} {bs : Bytes} : 0x20 ≤ c.toNat → c.toNat < 0x7f → c ≠ q → c ≠ '\\' → LiteralBody q s bs →
      LiteralBody q (c :: s) (UInt8.ofNat c.toNat :: bs)
  | escape {c : Char} {b : UInt8} {s : Str} {bs : Bytes} :
      (c, b) ∈ [('\\', 0x5c), ('\'', 0x27), ('"', 0x22), ('t', 0x09), ('n', 0x0a), ('r', 0x0d)] → LiteralBody q s bs →
      LiteralBody q ('\\' :: c :: s) (b :: bs)
  | hex {c c' : Char} {m n : Nat} {s : Str} {bs : Bytes} : HexDigit c m → HexDigit c' n → LiteralBody q s bs →
      LiteralBody q ('\\' :: 'x' :: c :: c' :: s) (UInt8.ofNat (16 * m + n) :: bs)

/-- a Python `bytes` literal -/
def BytesLiteral (s : Str) (bs : Bytes) : Prop :=
  ∃ q body, (q = '\'' ∨ q = '"') ∧ s = 'b' :: q :: (body ++ [q]) ∧ LiteralBody q body bs

/-- how a command prints a statement: `verify identity` as its text, `verify github` as a Python literal -/
def PrintedAs (cmd : VerifyCommand) (payload : Bytes) (line : Str) : Prop :=
  match cmd with
  | .identity _ _ => payload = utf8 line
  | .github _ => BytesLiteral line payload

/-- an input was verified, as a signature of the input (no statement) or as an attestation of it (the payload) -/
def VerifiedWith (venv : VerifyEnv) (fs : Fs) (now : Time) (args : VerifyArgs) (v : Verifier) (policy : Cert → Py Unit)
    (i : VerifyInput) (payload : Option Bytes) : Prop :=
  ∃ m h b, MaterialsFor fs args i m ∧ DigestOf venv.env.crypto fs i h ∧ Loads venv fs h m b ∧
    ((b.inner.dsseEnvelope = none ∧ verifyArtifact venv.env now v (.hashed h) b policy = .ok () ∧ payload = none) ∨
     (b.inner.dsseEnvelope ≠ none ∧ ∃ bytes inner,
       verifyDsse venv.env now v b policy = .ok ("application/vnd.in-toto+json".toList, bytes) ∧
       venv.codec.parse bytes = some inner ∧ h.algorithm = .sha2_256 ∧ HasSubject inner h ∧ payload = some bytes))

/-- the lines about a verified input: that it is, on standard error, and its statement, on standard output -/
def OkLines (cmd : VerifyCommand) (i : VerifyInput) (payload : Option Bytes) (said : List Said) : Prop :=
  ∃ name, Names name i ∧
    match payload with
    | none => said = [.err ("OK: ".toList ++ name)]
    | some bytes => ∃ line, PrintedAs cmd bytes line ∧ said = [.err ("OK: ".toList ++ name), .out line]

/-- the end of a run at an input that is not verified, or whose statement cannot be printed -/
inductive Stops (verbose : Bool) (i : VerifyInput) (verified : Prop) (text : Prop) : Py Unit → List Said → Prop
  /-- verification failed: a hint if it is about certificates, the name of the input, the error; `--verbose` also lets it
  through, after reporting it again -/
  | failed {e : Exc} {name : Str} {said : List Said} : ¬ verified → e.isSigstoreError = true → Names name i →
      said = (if e = .certValidation then
          [.log 30 (.text "A certificate chain was not valid, are you using the correct Sigstore instance?".toList)] else []) ++
        [.log 40 (.text ("FAIL: ".toList ++ name)), .log 40 (.diagnostics e verbose)] ++
        (if verbose then [.log 40 (.diagnostics e true)] else []) →
      Stops verbose i verified text (.error (if verbose then e else .systemExit 1)) said
  /-- another exception came through: nothing is written about the input -/
  | raised {e : Exc} : ¬ verified → e.isSigstoreError = false → Stops verbose i verified text (.error e) []
  /-- `verify identity` cannot print a statement that is not text -/
  | unprintable {name : Str} : verified → ¬ text → Names name i →
      Stops verbose i verified text (.error .unicodeDecode) [.err ("OK: ".toList ++ name)]

/-- **What the verification of the inputs reports**: in the order of their first mention, up to the first input that is not
verified, the lines for a verified input; then how it stopped, or nothing if all were verified. -/
def Reported (venv : VerifyEnv) (fs : Fs) (now : Time) (cmd : VerifyCommand) (verbose : Bool) (args : VerifyArgs)
    (v : Verifier) (policy : Cert → Py Unit) (r : Py Unit) (said : List Said) : Prop :=
  ∃ (done : List (VerifyInput × Option Bytes × List Said)) (rest : List VerifyInput) (tail : List Said),
    Mentioned args.inputs = done.map (·.1) ++ rest ∧
    (∀ x ∈ done, VerifiedWith venv fs now args v policy x.1 x.2.1 ∧ OkLines cmd x.1 x.2.1 x.2.2) ∧
    said = done.flatMap (·.2.2) ++ tail ∧
    ((rest = [] ∧ r = .ok () ∧ tail = []) ∨
     ∃ i rest', rest = i :: rest' ∧
       Stops verbose i (∃ p, VerifiedWith venv fs now args v policy i p)
         (∀ p, VerifiedWith venv fs now args v policy i (some p) → PrintsText cmd = true → ∃ t, p = utf8 t) r tail)

end Sigstore.Spec
