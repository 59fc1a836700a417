import Verif.Spec.CliSign
import Verif.Spec.CliVerify

/-!
# Specification: what may depend on the content of an input
-/

namespace Sigstore.Spec

open Sigstore.Cli

/-- two file systems that differ in nothing but the content of the files at `places`, where the contents have the same SHA-256
digests -/
def SameDigests (c : Crypto) (places : List Path) (d d' : Disk) : Prop :=
  ∀ p, d p = d' p ∨
    (p ∈ places ∧ ∃ x x', d p = some (.file x) ∧ d' p = some (.file x') ∧ c.sha256 x = c.sha256 x')

/-- whatever differs in `d₁` and `d₁'` has not been touched since `d` and `d'` -/
def SameChanges (d d' d₁ d₁' : Disk) : Prop := ∀ p, d₁ p = d₁' p ∨ (d₁ p = d p ∧ d₁' p = d' p)

/-- two runs of a signing command that end in the same way, with the same requests, and write the same to the same files -/
structure SameRun (d d' : Disk) (r r' : Option (Py Unit) × SignState) : Prop where
  result : r.1 = r'.1
  tuf : r.2.tuf = r'.2.tuf
  world : r.2.world = r'.2.world
  disk : SameChanges d d' r.2.disk r'.2.disk

/-- the files that `sigstore verify` reads for its materials: the options, and files beside the inputs -/
inductive MaterialPath (positional : List Str) (certificate signature bundle : Option Path) : Path → Prop
  | certificate {p : Path} : certificate = some p → MaterialPath positional certificate signature bundle p
  | signature {p : Path} : signature = some p → MaterialPath positional certificate signature bundle p
  | bundle {p : Path} : bundle = some p → MaterialPath positional certificate signature bundle p
  | beside {arg suffix : Str} : arg ∈ positional →
      suffix ∈ [".sigstore.json".toList, ".sigstore".toList, ".crt".toList, ".sig".toList] →
      MaterialPath positional certificate signature bundle (Beside (Path.ofStr arg) suffix)

end Sigstore.Spec
