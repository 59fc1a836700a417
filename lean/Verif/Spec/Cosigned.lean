import Verif.Spec.SignedNote
import Verif.Model.Bundle

/-!
# Specification of further signatures on a checkpoint
-/

namespace Sigstore.Spec

open Sigstore.LogEntry

/-- the signatures with the key hint of the log, which is the beginning of its id -/
def ofLog (logId : Bytes) (sigs : List NoteSig) : List NoteSig := sigs.filter fun s => s.hint = logId.take 4

/-- the entry with another checkpoint -/
def withCheckpoint (e : LogEntry) (text : Str) : LogEntry :=
  { e with proof := e.proof.map fun p => { p with checkpoint := some text } }

/-- the message with another checkpoint in the entry -/
def cosigned (m : BundleMsg) (text : Str) : BundleMsg :=
  { m with tlogEntries := m.tlogEntries.map fun e => withCheckpoint e text }

end Sigstore.Spec
