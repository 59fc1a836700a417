import Verif.Spec.Growth

/-!
# Specification: validity periods of trusted keys and authorities
-/

namespace Sigstore.Spec

open Sigstore.Trust

/-- the time is within the period; without a period every time is -/
def Covers (p : Option TimeRange) (t : Time) : Prop :=
  ∀ r, p = some r → r.start ≤ t ∧ ∀ e, r.stop = some e → t ≤ e

/-- the same key, with periods that have both started or both not -/
structure SameKey (now : Time) (m m' : PublicKeyMsg) : Prop where
  rawBytes : m.rawBytes = m'.rawBytes
  keyDetails : m.keyDetails = m'.keyDetails
  started : Started now m.validFor ↔ Started now m'.validFor

/-- the same authority, with periods that have both started or both not -/
structure SameAuthority (now : Time) (a a' : CertificateAuthority Cert) : Prop where
  certificates : a.certificates = a'.certificates
  started : Started now a.validFor ↔ Started now a'.validFor

/-- trusted roots that differ in the validity periods of logs and certificate authorities only, but not in which of them have
started; the timestamp authorities are the same -/
structure SameButPeriods (now : Time) (root root' : TrustedRoot Cert) : Prop where
  tlogs : List.Forall₂ (SameKey now) root.tlogs root'.tlogs
  ctlogs : List.Forall₂ (SameKey now) root.ctlogs root'.ctlogs
  certificateAuthorities : List.Forall₂ (SameAuthority now) root.certificateAuthorities root'.certificateAuthorities
  timestampAuthorities : root.timestampAuthorities = root'.timestampAuthorities

end Sigstore.Spec
