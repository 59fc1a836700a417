import Verif.Spec.Verification

/-!
# Trust that only grows

What has to be said about keys and roots to compare verification at two times, or with two trusted roots.
-/

namespace Sigstore.Spec

open Sigstore.Trust Sigstore.LogEntry

/-- one of the messages denotes a key with this id -/
def KnownId (c : Crypto) (ms : List PublicKeyMsg) (id : Bytes) : Prop :=
  ∃ m ∈ ms, ∃ key s, Denotes c m key s ∧ c.sha256 key.spki = id

/-- no two messages denote keys with the same id but different contents or schemes -/
def Unambiguous (c : Crypto) (ms : List PublicKeyMsg) : Prop :=
  ∀ m ∈ ms, ∀ m' ∈ ms, ∀ key s key' s', Denotes c m key s → Denotes c m' key' s' →
    c.sha256 key.spki = c.sha256 key'.spki → key = key' ∧ s = s'

/-- a validity period that has started -/
def Started (now : Time) (period : Option TimeRange) : Prop := ∀ r, period = some r → r.start ≤ now

/-- the keys that made the log's and the CT log's signatures can be told from their ids -/
def NamesItsLogs (c : Crypto) (now : Time) (root : TrustedRoot Cert) (b : Bundle) : Prop :=
  KnownId c (startedKeys now root.tlogs) b.entry.logId ∧
  ∀ scts, b.cert.scts = some scts → ∀ sct ∈ scts, KnownId c (startedKeys now root.ctlogs) sct.logId

end Sigstore.Spec
