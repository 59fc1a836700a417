import Verif.Model.MovingClock

/-!
# Specification of verification while the clock moves
-/

namespace Sigstore.Spec

open Sigstore.Trust Sigstore.LogEntry

/-- a moment at which something in the trusted root begins to be valid -/
def Begins (root : TrustedRoot Cert) (s : Time) : Prop :=
  (∃ r : TimeRange, r.start = s ∧
    ((∃ k ∈ root.tlogs ++ root.ctlogs, k.validFor = some r) ∨
     (∃ a ∈ root.certificateAuthorities ++ root.timestampAuthorities, a.validFor = some r)))

/-- nothing begins to be valid between a reading of the clock and the moment `now` -/
def NothingBegins (root : TrustedRoot Cert) (clock : MovingClock.Clock) (now : Time) : Prop :=
  ∀ r s, Begins root s → (clock r < s ↔ now < s)

/-- two log keys that are the same, or neither of which is valid before `latest` has passed -/
def SameKeyUntil (latest : Time) (k k' : PublicKeyMsg) : Prop :=
  k = k' ∨ ∃ r r' : TimeRange, k.validFor = some r ∧ k'.validFor = some r' ∧ latest < r.start ∧ latest < r'.start

/-- two authorities that are the same, or neither of which is valid before `latest` has passed (both with certificates) -/
def SameAuthorityUntil (latest : Time) (a a' : CertificateAuthority Cert) : Prop :=
  a = a' ∨ ∃ r r' : TimeRange, a.validFor = some r ∧ a'.validFor = some r' ∧ latest < r.start ∧ latest < r'.start ∧
    a.certificates ≠ [] ∧ a'.certificates ≠ []

/-- two trusted roots that differ only in what is not yet valid at `latest` -/
structure SameUntil (latest : Time) (root root' : TrustedRoot Cert) : Prop where
  tlogs : List.Forall₂ (SameKeyUntil latest) root.tlogs root'.tlogs
  ctlogs : List.Forall₂ (SameKeyUntil latest) root.ctlogs root'.ctlogs
  cas : List.Forall₂ (SameAuthorityUntil latest) root.certificateAuthorities root'.certificateAuthorities
  tsas : List.Forall₂ (SameAuthorityUntil latest) root.timestampAuthorities root'.timestampAuthorities

end Sigstore.Spec
