import Verif.Props.CliLogging
import Verif.Props.CliExitStatus

/-!
# What `sigstore verify` reports: two inputs, the first with a signature, the second with an attestation
-/

namespace Sigstore.Props

open Sigstore.Spec Sigstore.Trust Sigstore.LogEntry Sigstore.Dsse Sigstore.Cli

/-- the text of the statement; only its bytes matter here -/
def repText : Str := "{\"it's\": \"é\"}".toList

/-- the log entry of the attestation -/
def repEnv : Env :=
  { exVEnv with
    parseDsse := fun b =>
      if b = exBody then some ⟨some ("sha256".toList, hexEncode (toyCrypto.sha256 (utf8 repText))),
        some [(b64Encode ([2, 30] ++ Dsse.pae "application/vnd.in-toto+json".toList (utf8 repText)),
          base64EncodePemCert exSigner)]⟩ else none }

/-- a bundle with an attestation -/
def repBundle : Bundle :=
  ⟨{ mediaType := "application/vnd.dev.sigstore.bundle.v0.3+json".toList, certificate := some [4], chain := none,
     tlogEntries := [exLogged "dsse".toList "0.0.1".toList], timestamps := [[7], [13]], messageSignature := none,
     dsseEnvelope := some ⟨utf8 repText, "application/vnd.in-toto+json".toList,
       [[2, 30] ++ Dsse.pae "application/vnd.in-toto+json".toList (utf8 repText)]⟩ },
   exSigner, exLogged "dsse".toList "0.0.1".toList⟩

/-- the files -/
def repFs : Fs where
  isFile p := decide (p ∈ [Path.ofStr "a".toList, Path.ofStr "a.sigstore.json".toList, Path.ofStr "t".toList,
    Path.ofStr "d".toList, Path.ofStr "d.sigstore.json".toList])
  read p :=
    if p = Path.ofStr "a".toList then .ok exArtifact
    else if p = Path.ofStr "d".toList then .ok exArtifact
    else if p = Path.ofStr "a.sigstore.json".toList then .ok [1]
    else if p = Path.ofStr "d.sigstore.json".toList then .ok [3]
    else if p = Path.ofStr "t".toList then .ok [2]
    else .error .osError

/-- external functions that read the files -/
def repVerifyEnv : VerifyEnv :=
  { exVerifyEnv with
    env := repEnv
    parseBundle := fun b => if b = [1] then .ok exBundle.inner else if b = [3] then .ok repBundle.inner else .error .pydantic
    codec := ⟨fun b => if b = utf8 repText then
      some ⟨[⟨none, [("sha256".toList, hexEncode exArtifact)]⟩], [], none⟩ else none, fun _ => []⟩ }

/-- `str.upper`, for ASCII -/
def repUpper (s : Str) : Str := s.map fun c => if 'a' ≤ c ∧ c ≤ 'z' then Char.ofNat (c.toNat - 32) else c

/-- a run over the artifact `a`, `d` that comes with an attestation, and `a` again -/
def repRun (loglevel : Option Str) (identity : Str) (verbosity : Nat) : Py Unit × VerifyWorld × List Said :=
  verifyProgram repUpper loglevel repVerifyEnv repFs 3000000000 (.identity identity "https://i".toList) verbosity
    ["a".toList, "d".toList, "./a".toList] none none none ⟨some (Path.ofStr "t".toList), none, false, false, none⟩
    ⟨exTufWorld, []⟩

/-- both inputs are verified, each is mentioned once, and the statement goes to standard output -/
example : (repRun none "me".toList 0).1 = .ok () ∧
    (repRun none "me".toList 0).2.2 = [.err "OK: a".toList, .err "OK: d".toList, .out repText] := by
  decide +kernel

/-- another identity: the first input fails, nothing is said of the second -/
example : (repRun none "you".toList 0).1 = .error (.systemExit 1) ∧
    (repRun none "you".toList 0).2.2 = [.log 40 (.text "FAIL: a".toList), .log 40 (.diagnostics .verification false)] := by
  decide +kernel

/-- with `--verbose` the error is reported twice, and raised -/
example : (repRun (some "critical".toList) "you".toList 1).1 = .error .verification ∧
    (repRun (some "critical".toList) "you".toList 1).2.2 = [.log 40 (.text "FAIL: a".toList),
      .log 40 (.diagnostics .verification true), .log 40 (.diagnostics .verification true)] := by
  decide +kernel

/-- the hypotheses of C107: a level that is known, not quiet, not silenced -/
example : LevelKnown repUpper (some "info".toList) ∧ ¬ Quiet repUpper (some "info".toList) 0 ∧
    Quiet repUpper (some "Error".toList) 0 ∧ ¬ Silenced repUpper (some "Error".toList) 0 ∧
    ¬ LevelKnown repUpper (some "loud".toList) ∧ repUpper "INFO".toList = "INFO".toList := by
  refine ⟨?_, ?_, ?_, ?_, ?_, by decide⟩
  · intro s h; cases h; decide
  · rintro ⟨_, s, h, h'⟩; cases h; exact absurd h' (by decide)
  · exact ⟨rfl, _, rfl, by decide⟩
  · rintro ⟨_, s, h, h'⟩; cases h; exact absurd h' (by decide)
  · intro h; exact absurd (h _ rfl) (by decide)

/-- **C107** Witness: with `SIGSTORE_LOGLEVEL=critical`, a verification fails without a word. -/
theorem C107_silent_failure : Silenced repUpper (some "critical".toList) 0 ∧
    (repRun (some "critical".toList) "you".toList 0).1 = .error (.systemExit 1) ∧
    (repRun (some "critical".toList) "you".toList 0).2.2 = [] :=
  ⟨⟨rfl, _, rfl, by decide⟩, by decide +kernel, by decide +kernel⟩

/-- `verify github` prints a Python literal, not the statement -/
example : bytesRepr (utf8 repText) = "b'{\"it\\'s\": \"\\xc3\\xa9\"}'".toList := by decide +kernel

end Sigstore.Props
