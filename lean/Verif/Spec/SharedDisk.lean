import Verif.Model.SharedDisk
import Verif.Spec.CliSign

/-!
# Specification of `sigstore sign` while other programs change files
-/

namespace Sigstore.Spec

open Sigstore.Cli

/-- others never change what is at `l` -/
structure LeaveAlone (others : Shared.Others) (l : Path) : Prop where
  beforeCheck : ∀ n d, others.beforeCheck n d l = d l
  afterChecks : ∀ d, others.afterChecks d l = d l
  events : ∀ f, Shared.Event.others f ∈ others.events → ∀ d, f d l = d l

/-- others do nothing -/
structure Alone (others : Shared.Others) (schedule : List Nat) : Prop where
  beforeCheck : ∀ n d, others.beforeCheck n d = d
  afterChecks : ∀ d, others.afterChecks d = d
  events : others.events = schedule.map .step

end Sigstore.Spec
