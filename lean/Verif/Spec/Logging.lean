import Verif.Model.CliReport

/-!
# Specification of which log records of `sigstore verify` are written
-/

namespace Sigstore.Spec

open Sigstore.Cli

/-- the names of the levels of Python's `logging`, by severity -/
def KnownLevels : List Str :=
  ["CRITICAL".toList, "FATAL".toList, "ERROR".toList, "WARN".toList, "WARNING".toList, "INFO".toList, "DEBUG".toList,
   "NOTSET".toList]

/-- `SIGSTORE_LOGLEVEL` is not set, or names a level in letters of any case -/
def LevelKnown (upper : Str → Str) (loglevel : Option Str) : Prop := ∀ s, loglevel = some s → upper s ∈ KnownLevels

/-- without `--verbose`, `SIGSTORE_LOGLEVEL` is set to one of some levels -/
def QuietAt (names : List Str) (upper : Str → Str) (loglevel : Option Str) (verbosity : Nat) : Prop :=
  verbosity = 0 ∧ ∃ s, loglevel = some s ∧ upper s ∈ names

/-- errors are not written -/
def Silenced : (Str → Str) → Option Str → Nat → Prop := QuietAt ["CRITICAL".toList, "FATAL".toList]

/-- warnings are not written -/
def Quiet : (Str → Str) → Option Str → Nat → Prop := QuietAt ["CRITICAL".toList, "FATAL".toList, "ERROR".toList]

/-- the one warning of a verification -/
def CertificateHint : Said :=
  .log 30 (.text "A certificate chain was not valid, are you using the correct Sigstore instance?".toList)

end Sigstore.Spec
