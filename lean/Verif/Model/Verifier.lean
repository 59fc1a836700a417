import Verif.Model.Bundle
import Verif.Model.Sct
import Verif.Model.Policy

/-!
# Model of `/repo/sigstore/verify/verifier.py`

Times are microseconds since the Unix epoch.  One clock reading `now` serves a whole verification (the
code reads the clock once per trusted-root query; `Verif.Model.MovingClock` lets the clock move in between).
-/

namespace Sigstore

open Sigstore.Trust Sigstore.LogEntry Sigstore.Dsse Sigstore.Sct

/-- `MAX_ALLOWED_TIMESTAMP` (`verifier.py:71`) -/
def maxAllowedTimestamp : Nat := 32

/-- `VERIFIED_TIME_THRESHOLD` (`verifier.py:75`) -/
def verifiedTimeThreshold : Nat := 1

/-- `Verifier` (`verifier.py:78-96`): the trusted root and the Fulcio certificates -/
structure Verifier where
  root : TrustedRoot Cert
  fulcioCerts : List Cert

/-- `Verifier.__init__` (`verifier.py:83-96`): `tlogs[0]` fails without any log -/
def Verifier.init (now : Time) (root : TrustedRoot Cert) : Py Verifier :=
  match getFulcioCerts now root with
  | .error e => .error e
  | .ok certs =>
    match root.tlogs with
    | [] => .error .indexError
    | _ :: _ => .ok { root := root, fulcioCerts := certs }

/-- `TimestampSource` and `TimestampVerificationResult` (`timestamp.py:37-53`) -/
inductive TimeSource where
  | timestampAuthority | transparencyService
deriving DecidableEq, Repr

/-- a verified time with its source -/
structure VerifiedTime where
  source : TimeSource
  time : Time
deriving DecidableEq, Repr

/-- the comparison with the validity period of an authority (`verifier.py:156-163`): the end is excluded -/
def inWindow (r : TimeRange) (t : Time) : Bool :=
  decide (r.start ≤ t) && (match r.stop with | none => true | some e => decide (t < e))

/-- the loop of `_verify_signed_timestamp` (`verifier.py:133-171`) over the authorities.  An authority
without `valid_for` makes `validity_period_start` fail with an `AttributeError`. -/
def verifySignedTimestamp (env : Env) (now : Time) (tsr : Tsr) (message : Bytes) :
    List (CertificateAuthority Cert) → Py (Option VerifiedTime)
  | [] => .ok none
  | ca :: cas =>
    match ca.certs now true with
    | [] => verifySignedTimestamp env now tsr message cas
    | [_] => verifySignedTimestamp env now tsr message cas
    | leaf :: c2 :: cs =>
      let certificates := leaf :: c2 :: cs
      let root := certificates.getLast (by simp)
      let intermediates := (c2 :: cs).dropLast
      if env.verifyTsr leaf root intermediates tsr message then
        match ca.validFor with
        | none => .error .attributeError
        | some r =>
          if inWindow r tsr.genTime then
            .ok (some { source := .timestampAuthority, time := tsr.genTime })
          else verifySignedTimestamp env now tsr message cas
      else verifySignedTimestamp env now tsr message cas

/-- the list comprehension of `_verify_timestamp_authority` (`verifier.py:197-201`); the signature is
evaluated for each timestamp -/
def verifyTimestamps (env : Env) (now : Time) (cas : List (CertificateAuthority Cert)) (signature : Py Bytes) :
    List Tsr → Py (List VerifiedTime)
  | [] => .ok []
  | t :: ts =>
    match signature with
    | .error e => .error e
    | .ok sig =>
      match verifySignedTimestamp env now t sig cas with
      | .error e => .error e
      | .ok r =>
        match verifyTimestamps env now cas signature ts with
        | .error e => .error e
        | .ok rs => .ok (match r with | none => rs | some v => v :: rs)

/-- `_verify_timestamp_authority` (`verifier.py:173-203`) on the decoded timestamps; duplicates are found
by comparing the size of the set -/
def verifyTimestampAuthority (env : Env) (now : Time) (cas : List (CertificateAuthority Cert)) (b : Bundle)
    (tsrs : List Tsr) : Py (List VerifiedTime) :=
  if tsrs.length > maxAllowedTimestamp then .error .verification
  else if tsrs.eraseDups.length ≠ tsrs.length then .error .verification
  else verifyTimestamps env now cas b.signature tsrs

/-- `datetime.fromtimestamp(t, tz=utc)` (used at `verifier.py:245`): years 1 to 9999.  The exceptions outside are those of
CPython where `time_t` has 64 bits and the year of `struct tm` is a 32-bit `int`: `ValueError`, `OSError` (`EOVERFLOW` of
`gmtime`) and `OverflowError`. -/
def fromTimestamp (t : Int) : Py Time :=
  if -62135596800 ≤ t ∧ t ≤ 253402300799 then .ok (t * 1000000)
  else if -67768040609740800 ≤ t ∧ t ≤ 67768036191676799 then .error .valueError
  else if -(2 ^ 63) ≤ t ∧ t < 2 ^ 63 then .error .osError
  else .error .overflowError

/-- the log's integrated time (`verifier.py:228-247`): used if present, non-zero, and accompanied by an
inclusion promise -/
def logTime (e : LogEntry) : Py (List VerifiedTime) :=
  match e.integratedTime with
  | none => .ok []
  | some t =>
    if t ≠ 0 ∧ e.promise.isSome then
      if (e.kind = "dsse".toList ∨ e.kind = "hashedrekord".toList) ∧ e.version = "0.0.1".toList then
        match fromTimestamp t with
        | .error x => .error x
        | .ok time => .ok [{ source := .transparencyService, time := time }]
      else .error .verification
    else .ok []

/-- the timestamps part of `_establish_time` (`verifier.py:217-226`) -/
def tsaTimes (env : Env) (now : Time) (v : Verifier) (b : Bundle) : Py (List VerifiedTime) :=
  match timestampData env b.inner with
  | .error e => .error e
  | .ok [] => .ok []
  | .ok (t :: ts) =>
    match getTimestampAuthorities v.root with
    | .error e => .error e
    | .ok [] => .error .verification
    | .ok (ca :: cas) => verifyTimestampAuthority env now (ca :: cas) b (t :: ts)

/-- `_establish_time` (`verifier.py:205-248`) -/
def establishTime (env : Env) (now : Time) (v : Verifier) (b : Bundle) : Py (List VerifiedTime) :=
  match tsaTimes env now v b with
  | .error e => .error e
  | .ok l1 =>
    match logTime b.entry with
    | .error e => .error e
    | .ok l2 => .ok (l1 ++ l2)

/-- `_verify_chain_at_time` for every time, keeping the last chain (`verifier.py:250-281,329-331`) -/
def verifyChains (env : Env) (store : List Cert) (cert : Cert) (chain : List Cert) :
    List VerifiedTime → Py (List Cert)
  | [] => .ok chain
  | v :: vs =>
    match env.buildChain store v.time cert with
    | none => .error .certValidation
    | some chain' => verifyChains env store cert chain' vs

/-- step (2) (`verifier.py:333-341`) -/
def checkSct (env : Env) (now : Time) (v : Verifier) (cert : Cert) (chain : List Cert) : Py Unit :=
  match ctKeyring env.crypto now v.root .verify with
  | .error e => if e.isVerificationError then .error .verification else .error e
  | .ok kr =>
    match verifySct env.crypto cert chain kr with
    | .error e => if e.isVerificationError then .error .verification else .error e
    | .ok () => .ok ()

/-- the X.509 profile of step (3) (`verifier.py:343-353`) -/
def checkUsage (cert : Cert) : Py Unit :=
  match cert.keyUsage with
  | none => .error .extensionNotFound
  | some ku =>
    if !ku.digitalSignature then .error .verification
    else
      match cert.eku with
      | none => .error .extensionNotFound
      | some l => if l.contains .codeSigning then .ok () else .error .verification

/-- steps (4) and (5) (`verifier.py:357-364`) -/
def checkEntry (env : Env) (now : Time) (v : Verifier) (e : LogEntry) : Py Unit :=
  match rekorKeyring env.crypto now v.root .verify with
  | .error x => if x.isVerificationError then .error .verification else .error x
  | .ok kr =>
    match e.verify env.pyInt env.crypto kr with
    | .error x => if x.isVerificationError then .error .verification else .error x
    | .ok () => .ok ()

/-- step (6) (`verifier.py:366-376`) -/
def checkWindow (cert : Cert) : List VerifiedTime → Py Unit
  | [] => .ok ()
  | v :: vs =>
    if cert.notBefore ≤ v.time ∧ v.time ≤ cert.notAfter then checkWindow cert vs else .error .verification

/-- `_verify_common_signing_cert` (`verifier.py:283-376`); a policy is any function on certificates -/
def verifyCommon (env : Env) (now : Time) (v : Verifier) (b : Bundle) (policy : Cert → Py Unit) : Py Unit :=
  match establishTime env now v b with
  | .error e => .error e
  | .ok times =>
    if times.length < verifiedTimeThreshold then .error .verification
    else
      match verifyChains env v.fulcioCerts b.cert [] times with
      | .error e => .error e
      | .ok chain =>
        match checkSct env now v b.cert chain with
        | .error e => .error e
        | .ok () =>
          match checkUsage b.cert with
          | .error e => .error e
          | .ok () =>
            match policy b.cert with
            | .error e => .error e
            | .ok () =>
              match checkEntry env now v b.entry with
              | .error e => .error e
              | .ok () => checkWindow b.cert times

/-- `signing_key.verify(signature, digest, ec.ECDSA(hashed._as_prehashed()))` (`verifier.py:475-485`,
`/repo/sigstore/hashes.py:51-57`) on an arbitrary key object, `InvalidSignature` turned into
`VerificationError`.  The attribute lookup precedes the evaluation of the arguments; `AttributeError`
stands for whatever other key classes raise; a digest of the wrong size is a `ValueError`. -/
def verifyPrehashed (c : Crypto) (key : PubKey) (signature : Bytes) (h : Hashed) : Py Unit :=
  match key.kind with
  | .other _ => .error .attributeError
  | .rsa _ => if h.algorithm = .sha2_256 then .error .typeError else .error .error
  | .ed25519 => if h.algorithm = .sha2_256 then .error .typeError else .error .error
  | .ec _ =>
    if h.algorithm = .sha2_256 then
      if h.digest.length = 32 then
        if c.ecdsa key h.digest signature then .ok () else .error .verification
      else .error .valueError
    else .error .error

/-- `_v2_verifier_from_certificate` (`verifier.py:652-666`) -/
def v2Verifier (cert : Cert) : Py (V2VerifierKey × KeyDetails) :=
  match getKeyDetails cert with
  | .error e => .error e
  | .ok kd => .ok (.x509 cert.der, kd)

/-- `_hashedrekord_from_parts` (`/repo/sigstore/_internal/rekor/__init__.py:103-121`) with
`Hashed._as_hashedrekord_algorithm` (`hashes.py:43-49`); all other fields of the model have defaults -/
def hashedrekordFromParts (cert : Cert) (sig : Bytes) (h : Hashed) : Py HashedrekordBody :=
  if h.algorithm = .sha2_256 then
    .ok { apiVersion := "0.0.1".toList, content := some (b64Encode sig), publicKey := some (base64EncodePemCert cert),
          hash := some ("sha256".toList, hexEncode h.digest) }
  else .error .error

/-- `_validate_hashedrekord_v001_entry_body` (`verifier.py:547-565`) -/
def validateHashedrekordV001 (env : Env) (cert : Cert) (entry : LogEntry) (sig : Bytes) (h : Hashed) : Py Unit :=
  match hashedrekordFromParts cert sig h with
  | .error e => .error e
  | .ok expected =>
    match env.parseHashedrekord entry.body with
    | none => .error .pydantic
    | some actual => if expected ≠ actual then .error .verification else .ok ()

/-- `_validate_hashedrekord_v002_entry_body` (`verifier.py:618-649`) -/
def validateHashedrekordV002 (env : Env) (cert : Cert) (entry : LogEntry) (sig : Bytes) (h : Hashed) : Py Unit :=
  match v2Verifier cert with
  | .error e => .error e
  | .ok (verifier, kd) =>
    let expected : V2Entry :=
      { kind := entry.kind, apiVersion := entry.version
        hashedRekord := some { algorithm := h.algorithm, digest := h.digest, signature := sig, verifier := verifier,
                               keyDetails := kd } }
    match env.parseV2 entry.body with
    | none => .error .pydantic
    | some actual => if expected ≠ actual then .error .verification else .ok ()

/-- `_validate_dsse_v001_entry_body` (`verifier.py:507-544`).  A missing payload hash makes the attribute
access fail. -/
def validateDsseV001 (env : Env) (cert : Cert) (entry : LogEntry) (e : EnvelopeMsg) : Py Unit :=
  match env.parseDsse entry.body with
  | none => .error .verification
  | some body =>
    match body.payloadHash with
    | none => .error .attributeError
    | some (alg, value) =>
      if alg ≠ "sha256".toList then .error .verification
      else if hexEncode (env.crypto.sha256 e.payload) ≠ value then .error .verification
      else
        let signatures := e.signatures.map fun s => (b64Encode s, base64EncodePemCert cert)
        if some signatures ≠ body.signatures then .error .verification else .ok ()

/-- `_validate_hashedrekord_v002_dsse_entry_body` (`verifier.py:568-615`); the envelope's signature is the
single element of `signatures` -/
def validateHashedrekordV002Dsse (env : Env) (cert : Cert) (entry : LogEntry) (e : EnvelopeMsg) : Py Unit :=
  match e.signatures with
  | [sig] =>
    match v2Verifier cert with
    | .error x => .error x
    | .ok (verifier, kd) =>
      match getPrehash kd with
      | .error x => .error x
      | .ok (algorithm, hashFunc) =>
        let expected : V2Entry :=
          { kind := entry.kind, apiVersion := entry.version
            hashedRekord := some { algorithm := algorithm, digest := env.crypto.hash hashFunc (pae e.payloadType e.payload),
                                   signature := sig, verifier := verifier, keyDetails := kd } }
        match env.parseV2 entry.body with
        | none => .error .pydantic
        | some actual => if expected ≠ actual then .error .verification else .ok ()
  | _ => .error .verification

/-- steps (7) and (8) of `verify_artifact` (`verifier.py:462-504`) -/
def checkArtifact (env : Env) (b : Bundle) (input : HashInput) : Py Unit :=
  let h := sha256Digest env.crypto input
  match b.inner.messageSignature with
  | none => .error .verification
  | some ms =>
    if ms.digest.isSome ∧ some h.digest ≠ ms.digest then .error .verification
    else
      match verifyPrehashed env.crypto b.cert.pubKey ms.signature h with
      | .error e => .error e
      | .ok () =>
        if b.entry.kind ≠ "hashedrekord".toList then .error .verification
        else if b.entry.version = "0.0.2".toList then
          validateHashedrekordV002 env b.cert b.entry ms.signature h
        else if b.entry.version = "0.0.1".toList then
          validateHashedrekordV001 env b.cert b.entry ms.signature h
        else .error .verification

/-- `Verifier.verify_artifact` (`verifier.py:440-504`) -/
def verifyArtifact (env : Env) (now : Time) (v : Verifier) (input : HashInput) (b : Bundle)
    (policy : Cert → Py Unit) : Py Unit :=
  match verifyCommon env now v b policy with
  | .error e => .error e
  | .ok () => checkArtifact env b input

/-- steps (7) and (8) of `verify_dsse` (`verifier.py:405-438`) -/
def checkDsse (env : Env) (b : Bundle) : Py (Str × Bytes) :=
  match b.inner.dsseEnvelope with
  | none => .error .verification
  | some e =>
    match envelopeInit e with
    | .error x => .error x
    | .ok _ =>
      match dsseVerify env.crypto b.cert.pubKey e with
      | .error x => .error x
      | .ok _ =>
        let checked : Py Unit :=
          if b.entry.kind = "hashedrekord".toList ∧ b.entry.version = "0.0.2".toList then
            validateHashedrekordV002Dsse env b.cert b.entry e
          else if b.entry.kind = "dsse".toList ∧ b.entry.version = "0.0.1".toList then
            validateDsseV001 env b.cert b.entry e
          else .error .verification
        match checked with
        | .error x => .error x
        | .ok () => .ok (e.payloadType, e.payload)

/-- `Verifier.verify_dsse` (`verifier.py:378-438`) -/
def verifyDsse (env : Env) (now : Time) (v : Verifier) (b : Bundle) (policy : Cert → Py Unit) : Py (Str × Bytes) :=
  match verifyCommon env now v b policy with
  | .error e => .error e
  | .ok () => checkDsse env b

end Sigstore
