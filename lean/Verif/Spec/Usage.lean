import Verif.Spec.CliSign
import Verif.Spec.CliVerify

/-!
# Specification of usable arguments
-/

namespace Sigstore.Spec

open Sigstore.Trust Sigstore.LogEntry Sigstore.Dsse Sigstore.Cli Sigstore.Tuf

/-- `sigstore verify` can start: the arguments stand for inputs, the options fit together, and there are materials for
every input -/
def UsableVerify (fs : Fs) (positional : List Str) (certificate signature bundle : Option Path) (trust : TrustArgs) : Prop :=
  positional ≠ [] ∧ ∃ inputs, List.Forall₂ (ArgDenotes fs) positional inputs ∧
    Consistent ⟨inputs, certificate, signature, bundle, trust⟩ ∧
    ∀ i ∈ inputs, ∃ m, MaterialsFor fs ⟨inputs, certificate, signature, bundle, trust⟩ i m

/-- `sigstore sign` can start: the options fit together, every input is a file, the output directory is not a file, and no
output exists yet unless it may be overwritten -/
structure UsableSign (e : DiskEnv) (args : SignArgs) (d : Disk) : Prop where
  consistent : ConsistentSign args
  inputs : ∀ f ∈ args.files, ∃ c, d (e.resolve f) = some (.file c)
  directory : ∀ dir c, args.files ≠ [] → args.outputDirectory = some dir → d (e.resolve dir) ≠ some (.file c)
  outputs : args.overwrite = false → ∀ f ∈ args.files, ∀ p, SignOutput args f p → d (e.resolve p) = none

/-- the directories that `sign` needs are there or can be made -/
def DirectoriesOk (e : DiskEnv) (args : SignArgs) : Prop :=
  ∀ f ∈ args.files, e.canMkdir (args.outputDirectory.getD f.parent) = true

end Sigstore.Spec
