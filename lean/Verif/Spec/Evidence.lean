import Verif.Model.Bundle

/-!
# What verification may depend on

A bundle carries more than what is signed by someone trusted: a chain of certificates, and statements about the log entry whose promise
cannot be checked.  Two bundles have the same evidence if they agree in everything else.
-/

namespace Sigstore.Spec

open Sigstore.LogEntry

/-- the leaf certificate in a message: the first of the chain in the first two formats, the only one in the third -/
def leafDer (m : BundleMsg) : Option Bytes :=
  if m.mediaType = "application/vnd.dev.sigstore.bundle+json;version=0.1".toList ∨
      m.mediaType = "application/vnd.dev.sigstore.bundle+json;version=0.2".toList then
    match m.chain with
    | some (c :: _) => some c
    | _ => none
  else m.certificate

/-- there is a promise, and a time that it is about -/
def Promised (e : LogEntry) : Prop := ∃ promise time, e.promise = some promise ∧ e.integratedTime = some time ∧ time ≠ 0

/-- two entries that differ at most in the position, the time and the promise, and in these only if neither has a promise with a time -/
structure SameEntry (e e' : LogEntry) : Prop where
  logId : e.logId = e'.logId
  kind : e.kind = e'.kind
  version : e.version = e'.version
  body : e.body = e'.body
  proof : e.proof = e'.proof
  promised : Promised e ∨ Promised e' → e.logIndex = e'.logIndex ∧ e.integratedTime = e'.integratedTime ∧ e.promise = e'.promise

/-- two messages with the same evidence -/
structure SameEvidence (m m' : BundleMsg) : Prop where
  leaf : leafDer m = leafDer m'
  entry : ∀ e e', m.tlogEntries = [e] → m'.tlogEntries = [e'] → SameEntry e e'
  timestamps : m.timestamps = m'.timestamps
  signature : m.messageSignature = m'.messageSignature
  envelope : m.dsseEnvelope = m'.dsseEnvelope

/-- the entry with another position, time and promise -/
def restate (e : LogEntry) (index : Int) (time : Option Int) (promise : Option Bytes) : LogEntry :=
  { e with logIndex := index, integratedTime := time, promise := promise }

end Sigstore.Spec
