import Verif.Model.SigningConfig

/-!
# Which services a signing config selects
(protobuf-specs `sigstore_trustroot.proto`, messages `SigningConfig` and `ServiceConfiguration`)
-/

namespace Sigstore.Spec

open Sigstore.Trust Sigstore.Config

/-- of a supported API version, started, and not ended -/
def ServiceUsable (now : Time) (versions : List Nat) (s : Service) : Prop :=
  s.majorApiVersion ∈ versions ∧ ∀ p, s.validFor = some p → p.start ≤ now ∧ ∀ e, p.stop = some e → now ≤ e

/-- the usable service of its operator with the highest version; the last of them if there are several -/
def Preferred (now : Time) (versions : List Nat) (services : List Service) (s : Service) : Prop :=
  ServiceUsable now versions s ∧ ∃ before after, services = before ++ s :: after ∧
    (∀ t ∈ before, ServiceUsable now versions t → t.operator = s.operator → t.majorApiVersion ≤ s.majorApiVersion) ∧
    (∀ t ∈ after, ServiceUsable now versions t → t.operator = s.operator → t.majorApiVersion < s.majorApiVersion)

/-- operator `a` appears, with a usable service, before operator `b` does -/
def AppearsBefore (now : Time) (versions : List Nat) (services : List Service) (a b : Str) : Prop :=
  ∃ before s after, services = before ++ s :: after ∧ ServiceUsable now versions s ∧ s.operator = a ∧
    (∀ t ∈ before, ServiceUsable now versions t → t.operator ≠ b) ∧ a ≠ b

/-- One service per operator: the preferred one; for every operator with a usable service; in the order in which
operators appear. -/
structure Selected (now : Time) (versions : List Nat) (services l : List Service) : Prop where
  preferred : ∀ s ∈ l, Preferred now versions services s
  complete : ∀ s ∈ services, ServiceUsable now versions s → ∃ t ∈ l, t.operator = s.operator
  ordered : l.Pairwise fun a b => AppearsBefore now versions services a.operator b.operator

/-- the number of services an `EXACT` configuration asks for; unset means one -/
def exactCount (cfg : ServiceConfiguration) : Nat :=
  match cfg.count with
  | none => 1
  | some 0 => 1
  | some n => n

end Sigstore.Spec
