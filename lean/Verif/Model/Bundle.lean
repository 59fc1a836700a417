import Verif.Model.Dsse
import Verif.Model.KeyDetails
import Verif.Model.CertUtils
import Verif.Model.LogEntry

/-!
# Model of `TimestampVerificationData`, `VerificationMaterial` and `Bundle`
(`/repo/sigstore/models.py:242-632`)
-/

namespace Sigstore

open Sigstore.Dsse Sigstore.LogEntry

/-- a decoded RFC 3161 response (`rfc3161_client.TimeStampResponse`): its encoding and `tst_info.gen_time`.
Two responses are equal (`set(...)`, `verifier.py:193`) iff their encodings are. -/
structure Tsr where
  raw : Bytes
  genTime : Time
deriving DecidableEq, Repr

/-- body of a `hashedrekord` 0.0.1 entry (`rekor_types.Hashedrekord`): the parts that are compared -/
structure HashedrekordBody where
  apiVersion : Str
  content : Option Str
  publicKey : Option Str
  hash : Option (Str × Str)
deriving DecidableEq, Repr

/-- body of a `dsse` 0.0.1 entry (`rekor_types.Dsse`): the parts that are read; a missing algorithm or
hash is `none` -/
structure DsseBody where
  payloadHash : Option (Str × Str)
  signatures : Option (List (Str × Str))
deriving DecidableEq, Repr

/-- verifier of a Rekor v2 entry -/
inductive V2VerifierKey where
  | x509 (der : Bytes)
  | publicKey (raw : Bytes)
deriving DecidableEq, Repr

/-- `HashedRekordLogEntryV002` -/
structure HashedRekordV002 where
  algorithm : HashAlgorithm
  digest : Bytes
  signature : Bytes
  verifier : V2VerifierKey
  keyDetails : Trust.KeyDetails
deriving DecidableEq, Repr

/-- `v2.entry.Entry`; other kinds of `spec` are `none` -/
structure V2Entry where
  kind : Str
  apiVersion : Str
  hashedRekord : Option HashedRekordV002
deriving DecidableEq, Repr

/-- Everything external to the verification code, as parameters. -/
structure Env where
  crypto : Crypto
  /-- Python `int(text)` -/
  pyInt : Str → Option Int
  /-- `load_der_x509_certificate`; `none` is a `ValueError` -/
  loadCert : Bytes → Option Cert
  /-- `rfc3161_client.decode_timestamp_response`; `none` is a `ValueError` -/
  decodeTsr : Bytes → Option Tsr
  /-- `rfc3161_client` verification with TSA certificate, root, intermediates, response and message;
  `false` is a `VerificationError` of that library -/
  verifyTsr : Cert → Cert → List Cert → Tsr → Bytes → Bool
  /-- `PolicyBuilder()...build_client_verifier().verify(cert, []).chain[1:]` for a store and a time;
  `none` is a verification failure -/
  buildChain : List Cert → Time → Cert → Option (List Cert)
  /-- `rekor_types.Hashedrekord.model_validate_json`; `none` is a pydantic `ValidationError` -/
  parseHashedrekord : Bytes → Option HashedrekordBody
  /-- `rekor_types.Dsse.model_validate_json` -/
  parseDsse : Bytes → Option DsseBody
  /-- `v2.entry.Entry.from_json` -/
  parseV2 : Bytes → Option V2Entry

/-- `MessageSignature`: the recorded digest, if any, and the signature -/
structure MessageSignature where
  digest : Option Bytes
  signature : Bytes
deriving DecidableEq, Repr

/-- `sigstore_models.bundle.v1.Bundle`: the fields the code reads.  An absent and an empty list of timestamps are
not distinguished by the code. -/
structure BundleMsg where
  mediaType : Str
  certificate : Option Bytes
  chain : Option (List Bytes)
  tlogEntries : List LogEntry
  timestamps : List Bytes
  messageSignature : Option MessageSignature
  dsseEnvelope : Option EnvelopeMsg
deriving DecidableEq, Repr

/-- `Bundle.BundleType` (`models.py:352-364`) -/
inductive BundleType where
  | v0_1 | v0_2 | v0_3_alt | v0_3
deriving DecidableEq, Repr

/-- the value of a `BundleType` -/
def BundleType.value : BundleType → Str
  | .v0_1 => "application/vnd.dev.sigstore.bundle+json;version=0.1".toList
  | .v0_2 => "application/vnd.dev.sigstore.bundle+json;version=0.2".toList
  | .v0_3_alt => "application/vnd.dev.sigstore.bundle+json;version=0.3".toList
  | .v0_3 => "application/vnd.dev.sigstore.bundle.v0.3+json".toList

/-- `Bundle.BundleType(text)` (`models.py:387-390`); `none` is a `ValueError` -/
def BundleType.ofValue (s : Str) : Option BundleType :=
  [BundleType.v0_1, .v0_2, .v0_3_alt, .v0_3].find? fun t => t.value = s

/-- a list of `load_der_x509_certificate` calls -/
def loadCerts (env : Env) : List Bytes → Py (List Cert)
  | [] => .ok []
  | b :: bs =>
    match env.loadCert b with
    | none => .error .valueError
    | some c =>
      match loadCerts env bs with
      | .error e => .error e
      | .ok cs => .ok (c :: cs)

/-- the loop over the remaining certificates (`models.py:431-437`): only a warning, but
`cert_is_root_ca` may raise -/
def checkChainCerts : List Cert → Py Unit
  | [] => .ok ()
  | c :: cs =>
    match certIsRootCa c with
    | .error e => .error e
    | .ok _ => checkChainCerts cs

/-- extraction of the leaf certificate (`models.py:392-439`) -/
def extractLeaf (env : Env) (t : BundleType) (m : BundleMsg) : Py Cert :=
  if t = .v0_3 ∨ t = .v0_3_alt then
    match m.certificate with
    | none => .error .invalidBundle
    | some raw =>
      match env.loadCert raw with
      | none => .error .valueError
      | some c => .ok c
  else
    match m.chain with
    | none => .error .invalidBundle
    | some [] => .error .invalidBundle
    | some (raw :: raws) =>
      match loadCerts env (raw :: raws) with
      | .error e => .error e
      | .ok [] => .error .valueError
      | .ok (leaf :: rest) =>
        match certIsLeaf leaf with
        | .error e => .error e
        | .ok false => .error .invalidBundle
        | .ok true =>
          match checkChainCerts rest with
          | .error e => .error e
          | .ok () => .ok leaf

/-- `TimestampVerificationData.__init__` (`models.py:249-269`): every response must decode -/
def decodeTsrs (env : Env) : List Bytes → Py (List Tsr)
  | [] => .ok []
  | b :: bs =>
    match env.decodeTsr b with
    | none => .error .verification
    | some t =>
      match decodeTsrs env bs with
      | .error e => .error e
      | .ok ts => .ok (t :: ts)

/-- `VerificationMaterial.timestamp_verification_data` (`models.py:294-304`) followed by
`rfc3161_timestamps`; `None` and an empty list are both `[]` -/
def timestampData (env : Env) (m : BundleMsg) : Py (List Tsr) := decodeTsrs env m.timestamps

/-- the entry checks of `Bundle._verify` (`models.py:441-494`) -/
def extractEntry (env : Env) (t : BundleType) (m : BundleMsg) : Py LogEntry :=
  match m.tlogEntries with
  | [entry] =>
    if entry.version ≠ "0.0.1".toList ∧ entry.version ≠ "0.0.2".toList then .error .incompatibleEntry
    else
      match entry.validate with
      | .error e => .error e
      | .ok () =>
        if t = .v0_1 then
          if entry.promise.isNone then .error .invalidBundle else .ok entry
        else if entry.promise.isNone then
          match timestampData env m with
          | .error e => .error e
          | .ok [] => .error .invalidBundle
          | .ok (_ :: _) => .ok entry
        else .ok entry
  | _ => .error .invalidBundle

/-- `Bundle` (`models.py:347-374`): what is stored after construction -/
structure Bundle where
  inner : BundleMsg
  cert : Cert
  entry : LogEntry
deriving DecidableEq, Repr

/-- `Bundle.__init__` and `Bundle._verify` (`models.py:366-494`) -/
def Bundle.init (env : Env) (m : BundleMsg) : Py Bundle :=
  match BundleType.ofValue m.mediaType with
  | none => .error .invalidBundle
  | some t =>
    match extractLeaf env t m with
    | .error e => .error e
    | .ok cert =>
      match extractEntry env t m with
      | .error e => .error e
      | .ok entry => .ok { inner := m, cert := cert, entry := entry }

/-- `Bundle.signature` (`models.py:520-530`): constructing the envelope may raise; without any content the
attribute access on `None` fails -/
def Bundle.signature (b : Bundle) : Py Bytes :=
  match b.inner.dsseEnvelope with
  | some e => envelopeInit e
  | none =>
    match b.inner.messageSignature with
    | some m => .ok m.signature
    | none => .error .attributeError

/-- bundle contents (`MessageSignature | dsse.Envelope`) -/
inductive Content where
  | message (m : MessageSignature)
  | envelope (e : EnvelopeMsg)
deriving DecidableEq, Repr

/-- `Bundle._to_parts` (`models.py:556-571`); without any content the result contains `None` -/
def Bundle.toParts (b : Bundle) : Py (Cert × Option Content × LogEntry) :=
  match b.inner.dsseEnvelope with
  | some e =>
    match envelopeInit e with
    | .error x => .error x
    | .ok _ => .ok (b.cert, some (.envelope e), b.entry)
  | none => .ok (b.cert, b.inner.messageSignature.map .message, b.entry)

/-- `Bundle._from_parts` (`models.py:586-632`) -/
def Bundle.fromParts (env : Env) (cert : Cert) (content : Option Content) (entry : LogEntry)
    (timestamps : Option (List Tsr)) : Py Bundle :=
  let ts := (timestamps.getD []).map Tsr.raw
  match content with
  | none => .error .attributeError
  | some (.message m) =>
    Bundle.init env { mediaType := BundleType.v0_3.value, certificate := some cert.der, chain := none,
                      tlogEntries := [entry], timestamps := ts, messageSignature := some m, dsseEnvelope := none }
  | some (.envelope e) =>
    Bundle.init env { mediaType := BundleType.v0_3.value, certificate := some cert.der, chain := none,
                      tlogEntries := [entry], timestamps := ts, messageSignature := none, dsseEnvelope := some e }

/-- `Bundle.from_parts` (`models.py:573-584`) -/
def Bundle.fromSignature (env : Env) (cert : Cert) (sig : Bytes) (entry : LogEntry) : Py Bundle :=
  Bundle.fromParts env cert (some (.message { digest := none, signature := sig })) entry none

/-- the version upgrade of `sigstore plumbing fix-bundle --upgrade-version`
(`/repo/sigstore/_cli.py:1335-1338`): `Bundle._from_parts(*bundle._to_parts())` -/
def Bundle.upgrade (env : Env) (b : Bundle) : Py Bundle :=
  match b.toParts with
  | .error e => .error e
  | .ok (cert, content, entry) => Bundle.fromParts env cert content entry none

/-- a log entry as `fix-bundle` may find it: with a proof that lacks its checkpoint -/
def LogEntry.LogEntry.lacksCheckpoint (e : LogEntry) : Py Bool :=
  match e.proof with
  | none => .error .attributeError
  | some p => .ok p.checkpoint.isNone

/-- the second half of `_fix_bundle` (`_cli.py:1330-1343`): construct the bundle (`InvalidBundle` exits with
status 1) and perhaps upgrade it -/
def finishFix (env : Env) (upgrade : Bool) (m : BundleMsg) : Py Bundle :=
  match Bundle.init env m with
  | .error e => if e.isInvalidBundle then .error (.systemExit 1) else .error e
  | .ok b => if upgrade then b.upgrade env else .ok b

/-- `_fix_bundle` (`_cli.py:1307-1343`) from the raw bundle to the bundle that is written; `fetch` is
`rekor.log.entries.get(log_index=...)`. `_fatal` exits with status 1. -/
def fixBundle (env : Env) (fetch : Int → Py LogEntry) (upgrade : Bool) (m : BundleMsg) : Py Bundle :=
  match m.tlogEntries with
  | [entry] =>
    match entry.lacksCheckpoint with
    | .error e => .error e
    | .ok false => finishFix env upgrade m
    | .ok true =>
      match fetch entry.logIndex with
      | .error e => .error e
      | .ok new => finishFix env upgrade { m with tlogEntries := [new] }
  | _ => .error (.systemExit 1)

end Sigstore
