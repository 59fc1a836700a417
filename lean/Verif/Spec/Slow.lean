import Verif.Spec.Honest

/-!
# Services that are honest and take their time

As in `Verif.Spec.Honest`, but nothing is said about when the services answer: the time a log or a timestamp authority vouches for is
the time at which it answered, and that may be after the certificate has expired.
-/

namespace Sigstore.Spec

open Sigstore.Trust Sigstore.LogEntry Sigstore.Dsse Sigstore.Signing Sigstore.Rekor

/-- Rekor follows its specification and integrates the entry at any time.  (`Logged` uses its certificate only for the time.) -/
def SlowLog (env : Env) (log : ServiceKey) (ms : List PublicKeyMsg) (rekor : EntryRequest → Py LogEntry) : Prop :=
  ∀ request, (∃ r, Records env.crypto request r) → ∀ entry, rekor request = .ok entry → ∃ c, Logged env log ms c request entry

/-- The timestamp authorities follow their specification and answer at any time. -/
structure SlowTsas (env : Env) (now : Time) (root : TrustedRoot Cert) (tsas : List (Bytes → Py Tsr)) : Prop where
  answers : ∀ tsa ∈ tsas, ∀ sig, tsa sig = .error .timestamp ∨
    ∃ t, tsa sig = .ok t ∧ env.decodeTsr t.raw = some t ∧ TrustedTsr env now root sig t
  different : ∀ sig, (answered sig tsas).Nodup
  few : tsas.length ≤ 32

/-- a time that is in the bundle: that of a timestamp, or the one that the log promises -/
inductive TimeIn (env : Env) (b : Bundle) : Time → Prop
  | timestamp (raw : Bytes) (t : Tsr) : raw ∈ b.inner.timestamps → env.decodeTsr raw = some t → TimeIn env b t.genTime
  | log (t : Int) : b.entry.promise ≠ none → b.entry.integratedTime = some t → TimeIn env b (t * 1000000)

/-- verification of the bundle for what was signed succeeds -/
def AcceptedFor (env : Env) (now : Time) (v : Verifier) (b : Bundle) (policy : Cert → Py Unit) : Call → Prop
  | .artifact input => verifyArtifact env now v input b policy = .ok ()
  | .dsse _ => ∃ r, verifyDsse env now v b policy = .ok r

end Sigstore.Spec
