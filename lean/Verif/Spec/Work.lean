import Verif.Model.Work

/-!
# Specification: how much work a bundle can cause
-/

namespace Sigstore.Spec

open Sigstore.Work

/-- The expensive operations of a verification are few, whatever the bundle is: at most 32 timestamps are tried, with each trusted
authority at most; there are at most 33 times at which the certificate's path is validated; three signatures of logs are verified,
each with all keys of the logs at most, and one with the certificate's key; a Merkle proof has at most 65 hashes. -/
structure WorkBound (root : Trust.TrustedRoot Cert) (calls : List Call) : Prop where
  timestamps : (calls.map Call.kind).count .timestamp ≤ 32 * root.timestampAuthorities.length
  chains : (calls.map Call.kind).count .chain ≤ 33
  signatures : (calls.map Call.kind).count .signature ≤ root.ctlogs.length + 2 * root.tlogs.length + 1
  hashes : (calls.map Call.kind).count .hash ≤ 66

end Sigstore.Spec
