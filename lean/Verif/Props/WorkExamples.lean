import Verif.Props.Work

/-!
# C122: the operations of an accepted bundle
-/

namespace Sigstore.Props

open Sigstore.Trust Sigstore.LogEntry Sigstore.Dsse Sigstore.Sct Sigstore.Checkpoint Sigstore.Work Sigstore.Spec

/-- the operations of an accepted bundle with two timestamps and a promise: two timestamps are validated, the path at two times, four
signatures are verified, one hash is computed -/
example : let calls := (Work.verifyArtifact exVEnv 3000000000 exVerifier (.bytes exArtifact) exBundle (fun _ => .ok ())).2
    (calls.map Call.kind).count .timestamp = 2 ∧ (calls.map Call.kind).count .chain = 2 ∧ (calls.map Call.kind).count .signature = 4 ∧ (calls.map Call.kind).count .hash = 1 := by
  decide +kernel

/-- the hypothesis on the fields -/
example : ∀ p, exBundle.entry.proof = some p → p.logIndex < 2 ^ 64 ∧ p.treeSize < 2 ^ 64 := by
  intro p h
  cases h
  decide

end Sigstore.Props
