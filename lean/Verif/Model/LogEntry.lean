import Verif.Prelude.Decimal
import Verif.Model.Checkpoint

/-!
# Model of `TransparencyLogEntry` (`/repo/sigstore/models.py:78-239`)
-/

namespace Sigstore.LogEntry

open Sigstore.Trust Sigstore.Checkpoint

/-- The fields of `sigstore_models.rekor.v1.TransparencyLogEntry` that the code reads.  The inclusion
promise is modelled as its `signed_entry_timestamp`. -/
structure LogEntry where
  logIndex : Int
  logId : Bytes
  kind : Str
  version : Str
  integratedTime : Option Int
  promise : Option Bytes
  proof : Option Merkle.InclusionProof
  body : Bytes
deriving DecidableEq, Repr

/-- `TransparencyLogEntry._validate` (`models.py:92-102`). -/
def LogEntry.validate (e : LogEntry) : Py Unit :=
  match e.proof with
  | none => .error .invalidBundle
  | some p => match p.checkpoint with
    | none => .error .invalidBundle
    | some _ => .ok ()

/-- An integer as RFC 8785 JSON (`rfc8785.dumps`): outside ±(2^53-1) it raises `IntegerDomainError`,
a subclass of `CanonicalizationError`. -/
def jsonInt (n : Int) : Py Str :=
  if -(2 ^ 53 - 1) ≤ n ∧ n ≤ 2 ^ 53 - 1 then .ok (decimalInt n) else .error .canonicalization

/-- the canonical JSON text; `"` and `\` never occur in the base64 and hex values, so no escaping -/
def canonicalText (body time logId index : Str) : Str :=
  "{\"body\":\"".toList ++ body ++ "\",\"integratedTime\":".toList ++ time ++ ",\"logID\":\"".toList ++
    logId ++ "\",\"logIndex\":".toList ++ index ++ "}".toList

/-- `TransparencyLogEntry._encode_canonical` (`models.py:170-192`).  `rfc8785.dumps` sorts the keys
(already sorted here) and emits no blanks. -/
def LogEntry.encodeCanonical (e : LogEntry) : Py Bytes :=
  match e.integratedTime with
  | none => .error .valueError
  | some t =>
    match jsonInt t with
    | .error x => .error x
    | .ok tt =>
      match jsonInt e.logIndex with
      | .error x => .error x
      | .ok ii => .ok (utf8 (canonicalText (b64Encode e.body) tt (hexEncode e.logId) ii))

/-- `TransparencyLogEntry._verify_set` (`models.py:194-214`). -/
def LogEntry.verifySet (c : Crypto) (kr : Keyring) (e : LogEntry) : Py Unit :=
  match e.promise with
  | none => .error .verification
  | some set =>
    match e.encodeCanonical with
    | .error x => .error x
    | .ok data =>
      match kr.verify c e.logId set data with
      | .ok () => .ok ()
      | .error x => if x.isVerificationError then .error .verification else .error x

/-- `self._inner.inclusion_promise and self._inner.integrated_time` (`models.py:235`): the time must
be present and non-zero. -/
def LogEntry.hasUsableSet (e : LogEntry) : Bool :=
  e.promise.isSome && (match e.integratedTime with | none => false | some t => t ≠ 0)

/-- `TransparencyLogEntry._verify` (`models.py:216-239`).  Without a proof the attribute access in
`verify_merkle_inclusion` fails. -/
def LogEntry.verify (pyInt : Str → Option Int) (c : Crypto) (kr : Keyring) (e : LogEntry) : Py Unit :=
  match e.proof with
  | none => .error .attributeError
  | some p =>
    match Merkle.verifyMerkleInclusion c.sha256 e.body p with
    | .error x => .error x
    | .ok () =>
      match verifyCheckpoint pyInt c kr e.logId p with
      | .error x => .error x
      | .ok () => if e.hasUsableSet then e.verifySet c kr else .ok ()

end Sigstore.LogEntry
