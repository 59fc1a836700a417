import Verif.Model.Verifier

/-!
# Model of the expensive operations of a verification

The functions of `Model.Verifier` and of what they call, with a trace of the operations that are expensive: path validation,
validation of a timestamp, verification of a signature, hashing of a node of the Merkle tree.  The first component of each function
is proved to be the result of the function without the trace.

Not counted: decoding (certificates, timestamps, JSON), building keyrings, hashing the input, and the policy.
-/

namespace Sigstore.Work

open Sigstore.Trust Sigstore.LogEntry Sigstore.Dsse Sigstore.Sct Sigstore.Checkpoint

/-- an expensive operation and its arguments -/
inductive Call where
  /-- path validation of the signing certificate with a store at a time (`verifier.py:276`) -/
  | chain (store : List Cert) (time : Time) (cert : Cert)
  /-- validation of an RFC 3161 timestamp with one authority (`verifier.py:151`) -/
  | timestamp (leaf root : Cert) (intermediates : List Cert) (tsr : Tsr) (message : Bytes)
  /-- verification of an RSA signature with one key (`trust.py:115-122`) -/
  | rsa (key : PubKey) (algorithm : HashAlg) (digest signature : Bytes)
  /-- verification of an ECDSA signature with one key (`trust.py:123-131`, `verifier.py:479-483`, `dsse/__init__.py:304`) -/
  | ecdsa (key : PubKey) (digest signature : Bytes)
  /-- verification of an Ed25519 signature with one key (`trust.py:132-139`) -/
  | ed25519 (key : PubKey) (message signature : Bytes)
  /-- a hash of the Merkle tree (`merkle.py:82-91`) -/
  | hash
deriving DecidableEq

/-- the kinds of operations that are counted -/
inductive Kind where
  | chain | timestamp | signature | hash
deriving DecidableEq, Repr

/-- the kind of an operation -/
def Call.kind : Call → Kind
  | .chain .. => .chain
  | .timestamp .. => .timestamp
  | .rsa .. => .signature
  | .ecdsa .. => .signature
  | .ed25519 .. => .signature
  | .hash => .hash

/-- a result and the operations so far -/
abbrev Traced (α : Type) := Py α × List Call

/-- no operation -/
def plain {α : Type} (r : Py α) : Traced α := (r, [])

/-- sequencing: an exception ends the trace -/
def andThen {α β : Type} (x : Traced α) (f : α → Traced β) : Traced β :=
  match x with
  | (.error e, l) => (.error e, l)
  | (.ok a, l) => ((f a).1, l ++ (f a).2)

/-- `except VerificationError` with a new `VerificationError` -/
def rewrap {α : Type} (x : Traced α) : Traced α :=
  match x with
  | (.error e, l) => (if e.isVerificationError then .error .verification else .error e, l)
  | (.ok a, l) => (.ok a, l)

/-! ## Merkle proof (`merkle.py:55-126`) -/

/-- `_chain_inner` (`merkle.py:62-68`) -/
def chainInnerFrom (H : Bytes → Bytes) (i : Nat) (seed : Bytes) (hashes : List Bytes) (logIndex : Nat) : Bytes × List Call :=
  match hashes with
  | [] => (seed, [])
  | h :: hs =>
    let seed := if (logIndex >>> i) &&& 1 = 0 then Merkle.hashChildren H seed h else Merkle.hashChildren H h seed
    let r := chainInnerFrom H (i + 1) seed hs logIndex
    (r.1, .hash :: r.2)

/-- `_chain_border_right` (`merkle.py:71-79`) -/
def chainBorderRight (H : Bytes → Bytes) (seed : Bytes) (hashes : List Bytes) : Bytes × List Call :=
  match hashes with
  | [] => (seed, [])
  | h :: hs =>
    let r := chainBorderRight H (Merkle.hashChildren H h seed) hs
    (r.1, .hash :: r.2)

/-- `verify_merkle_inclusion` (`merkle.py:94-126`) -/
def verifyMerkleInclusion (H : Bytes → Bytes) (body : Bytes) (proof : Merkle.InclusionProof) : Traced Unit :=
  let (inner, border) := Merkle.decompInclusionProof proof.logIndex proof.treeSize
  if proof.hashes.length ≠ inner + border then plain (.error .verification)
  else
    let leafHash := Merkle.hashLeaf H body
    let r := chainInnerFrom H 0 leafHash (proof.hashes.take inner) proof.logIndex
    let r' := chainBorderRight H r.1 (proof.hashes.drop inner)
    (if r'.1 ≠ proof.rootHash then .error .verification else .ok (), .hash :: (r.2 ++ r'.2))

/-! ## Keyrings and the log entry -/

/-- the operation of `Key.verify` (`trust.py:111-142`), if it comes to it -/
def keyCalls (c : Crypto) (k : Key) (signature data : Bytes) : List Call :=
  if k.key.isRsa then
    match k.hashAlgorithm with
    | some h => [.rsa k.key h (c.hash h data) signature]
    | none => []
  else if k.key.isEc then
    match k.hashAlgorithm with
    | some h => [.ecdsa k.key (c.hash h data) signature]
    | none => []
  else if k.key.isEd25519 then
    match k.hashAlgorithm with
    | none => [.ed25519 k.key data signature]
    | some _ => []
  else []

/-- the loop of `Keyring.verify` (`trust.py:181-187`) -/
def tryCandidates (c : Crypto) (signature data : Bytes) : List Key → Traced Bool
  | [] => plain (.ok false)
  | k :: ks =>
    match k.verify c signature data with
    | .ok () => (.ok true, keyCalls c k signature data)
    | .error .invalidSignature =>
      let r := tryCandidates c signature data ks
      (r.1, keyCalls c k signature data ++ r.2)
    | .error e => (.error e, keyCalls c k signature data)

/-- `Keyring.verify` (`trust.py:163-190`) -/
def keyringVerify (c : Crypto) (kr : Keyring) (keyId signature data : Bytes) : Traced Unit :=
  let candidates := match Dict.get? kr keyId with
    | some key => [key]
    | none => Dict.values kr
  andThen (tryCandidates c signature data candidates) fun
    | true => plain (.ok ())
    | false => plain (.error .verification)

/-- the loop of `SignedNote.verify` (`checkpoint.py:181-195`) -/
def verifySigs (c : Crypto) (kr : Keyring) (keyId note : Bytes) : List RekorSignature → Traced Unit
  | [] => plain (.error .verification)
  | s :: ss =>
    if s.sigHash = keyId.take 4 then
      andThen (plain (b64Decode s.signature)) fun sig => rewrap (keyringVerify c kr keyId sig note)
    else verifySigs c kr keyId note ss

/-- `verify_checkpoint` (`checkpoint.py:218-243`) -/
def verifyCheckpoint (pyInt : Str → Option Int) (c : Crypto) (kr : Keyring) (logId : Bytes) (proof : Merkle.InclusionProof) :
    Traced Unit :=
  match proof.checkpoint with
  | none => plain (.error .verification)
  | some envelope =>
    andThen (plain (SignedCheckpoint.fromText pyInt envelope)) fun sc =>
      andThen (verifySigs c kr logId (utf8 sc.signedNote.note) sc.signedNote.signatures) fun _ =>
        plain (if sc.checkpoint.logHash ≠ hexEncode proof.rootHash then .error .verification else .ok ())

/-- `TransparencyLogEntry._verify_set` (`models.py:194-214`) -/
def verifySet (c : Crypto) (kr : Keyring) (e : LogEntry) : Traced Unit :=
  match e.promise with
  | none => plain (.error .verification)
  | some set => andThen (plain e.encodeCanonical) fun data => rewrap (keyringVerify c kr e.logId set data)

/-- `TransparencyLogEntry._verify` (`models.py:216-239`) -/
def verifyEntry (pyInt : Str → Option Int) (c : Crypto) (kr : Keyring) (e : LogEntry) : Traced Unit :=
  match e.proof with
  | none => plain (.error .attributeError)
  | some p =>
    andThen (verifyMerkleInclusion c.sha256 e.body p) fun _ =>
      andThen (verifyCheckpoint pyInt c kr e.logId p) fun _ =>
        if e.hasUsableSet then verifySet c kr e else plain (.ok ())

/-! ## The verifier -/

/-- `_verify_signed_timestamp` (`verifier.py:126-171`) -/
def verifySignedTimestamp (env : Env) (now : Time) (tsr : Tsr) (message : Bytes) :
    List (CertificateAuthority Cert) → Traced (Option VerifiedTime)
  | [] => plain (.ok none)
  | ca :: cas =>
    match ca.certs now true with
    | [] => verifySignedTimestamp env now tsr message cas
    | [_] => verifySignedTimestamp env now tsr message cas
    | leaf :: c2 :: cs =>
      let root := (leaf :: c2 :: cs).getLast (by simp)
      let intermediates := (c2 :: cs).dropLast
      let rest := verifySignedTimestamp env now tsr message cas
      let call := Call.timestamp leaf root intermediates tsr message
      if env.verifyTsr leaf root intermediates tsr message then
        match ca.validFor with
        | none => (.error .attributeError, [call])
        | some r =>
          if inWindow r tsr.genTime then (.ok (some { source := .timestampAuthority, time := tsr.genTime }), [call])
          else (rest.1, call :: rest.2)
      else (rest.1, call :: rest.2)

/-- the list comprehension of `_verify_timestamp_authority` (`verifier.py:197-201`) -/
def verifyTimestamps (env : Env) (now : Time) (cas : List (CertificateAuthority Cert)) (signature : Py Bytes) :
    List Tsr → Traced (List VerifiedTime)
  | [] => plain (.ok [])
  | t :: ts =>
    andThen (plain signature) fun sig =>
      andThen (verifySignedTimestamp env now t sig cas) fun r =>
        andThen (verifyTimestamps env now cas signature ts) fun rs =>
          plain (.ok (match r with | none => rs | some v => v :: rs))

/-- `_verify_timestamp_authority` (`verifier.py:173-203`) -/
def verifyTimestampAuthority (env : Env) (now : Time) (cas : List (CertificateAuthority Cert)) (b : Bundle) (tsrs : List Tsr) :
    Traced (List VerifiedTime) :=
  if tsrs.length > maxAllowedTimestamp then plain (.error .verification)
  else if tsrs.eraseDups.length ≠ tsrs.length then plain (.error .verification)
  else verifyTimestamps env now cas b.signature tsrs

/-- the timestamps part of `_establish_time` (`verifier.py:217-226`) -/
def tsaTimes (env : Env) (now : Time) (v : Verifier) (b : Bundle) : Traced (List VerifiedTime) :=
  andThen (plain (timestampData env b.inner)) fun
    | [] => plain (.ok [])
    | t :: ts =>
      andThen (plain (getTimestampAuthorities v.root)) fun
        | [] => plain (.error .verification)
        | ca :: cas => verifyTimestampAuthority env now (ca :: cas) b (t :: ts)

/-- `_establish_time` (`verifier.py:205-248`) -/
def establishTime (env : Env) (now : Time) (v : Verifier) (b : Bundle) : Traced (List VerifiedTime) :=
  andThen (tsaTimes env now v b) fun l1 => andThen (plain (logTime b.entry)) fun l2 => plain (.ok (l1 ++ l2))

/-- `_verify_chain_at_time` for every time (`verifier.py:250-281,329-331`) -/
def verifyChains (env : Env) (store : List Cert) (cert : Cert) (chain : List Cert) : List VerifiedTime → Traced (List Cert)
  | [] => plain (.ok chain)
  | v :: vs =>
    match env.buildChain store v.time cert with
    | none => (.error .certValidation, [.chain store v.time cert])
    | some chain' =>
      let r := verifyChains env store cert chain' vs
      (r.1, .chain store v.time cert :: r.2)

/-- `verify_sct` (`sct.py:180-235`) -/
def verifySct (c : Crypto) (cert : Cert) (chain : List Cert) (kr : Keyring) : Traced Unit :=
  andThen (plain (getSct cert)) fun sct =>
    andThen (plain (issuerKeyIdFor c sct chain)) fun issuerKeyId =>
      andThen (plain (packDigitallySigned sct cert issuerKeyId)) fun digitallySigned =>
        if sct.hashAlgorithm ≠ some .sha256 then plain (.error .verification)
        else rewrap (keyringVerify c kr sct.logId sct.signature digitallySigned)

/-- step (2) (`verifier.py:333-341`) -/
def checkSct (env : Env) (now : Time) (v : Verifier) (cert : Cert) (chain : List Cert) : Traced Unit :=
  rewrap (andThen (plain (ctKeyring env.crypto now v.root .verify)) fun kr => verifySct env.crypto cert chain kr)

/-- steps (4) and (5) (`verifier.py:357-364`) -/
def checkEntry (env : Env) (now : Time) (v : Verifier) (e : LogEntry) : Traced Unit :=
  rewrap (andThen (plain (rekorKeyring env.crypto now v.root .verify)) fun kr => verifyEntry env.pyInt env.crypto kr e)

/-- `_verify_common_signing_cert` (`verifier.py:283-376`) -/
def verifyCommon (env : Env) (now : Time) (v : Verifier) (b : Bundle) (policy : Cert → Py Unit) : Traced Unit :=
  andThen (establishTime env now v b) fun times =>
    if times.length < verifiedTimeThreshold then plain (.error .verification)
    else
      andThen (verifyChains env v.fulcioCerts b.cert [] times) fun chain =>
        andThen (checkSct env now v b.cert chain) fun _ =>
          andThen (plain (checkUsage b.cert)) fun _ =>
            andThen (plain (policy b.cert)) fun _ =>
              andThen (checkEntry env now v b.entry) fun _ => plain (checkWindow b.cert times)

/-- the operation of `signing_key.verify` with a digest (`verifier.py:476-485`), if it comes to it -/
def prehashedCalls (key : PubKey) (signature : Bytes) (h : Hashed) : List Call :=
  match key.kind with
  | .ec _ => if h.algorithm = .sha2_256 ∧ h.digest.length = 32 then [.ecdsa key h.digest signature] else []
  | _ => []

/-- steps (7) and (8) of `verify_artifact` (`verifier.py:462-504`) -/
def checkArtifact (env : Env) (b : Bundle) (input : HashInput) : Traced Unit :=
  let h := sha256Digest env.crypto input
  match b.inner.messageSignature with
  | none => plain (.error .verification)
  | some ms =>
    if ms.digest.isSome ∧ some h.digest ≠ ms.digest then plain (.error .verification)
    else
      andThen (verifyPrehashed env.crypto b.cert.pubKey ms.signature h, prehashedCalls b.cert.pubKey ms.signature h) fun _ =>
        plain (
          if b.entry.kind ≠ "hashedrekord".toList then .error .verification
          else if b.entry.version = "0.0.2".toList then validateHashedrekordV002 env b.cert b.entry ms.signature h
          else if b.entry.version = "0.0.1".toList then validateHashedrekordV001 env b.cert b.entry ms.signature h
          else .error .verification)

/-- `Verifier.verify_artifact` (`verifier.py:440-504`) -/
def verifyArtifact (env : Env) (now : Time) (v : Verifier) (input : HashInput) (b : Bundle) (policy : Cert → Py Unit) :
    Traced Unit :=
  andThen (verifyCommon env now v b policy) fun _ => checkArtifact env b input

/-- the operation of `key.verify` with a message (`dsse/__init__.py:303-306`), if it comes to it -/
def ecCalls (c : Crypto) (key : PubKey) (signature data : Bytes) : List Call :=
  match key.kind with
  | .ec _ => [.ecdsa key (c.sha256 data) signature]
  | _ => []

/-- `dsse._verify` (`dsse/__init__.py:287-308`) -/
def dsseVerify (c : Crypto) (key : PubKey) (e : EnvelopeMsg) : Traced Bytes :=
  match e.signatures with
  | [sig] =>
    (match ecVerify c key sig (pae e.payloadType e.payload) with
      | .ok () => .ok e.payload
      | .error .invalidSignature => .error .verification
      | .error x => .error x, ecCalls c key sig (pae e.payloadType e.payload))
  | _ => plain (.error .verification)

/-- steps (7) and (8) of `verify_dsse` (`verifier.py:405-438`) -/
def checkDsse (env : Env) (b : Bundle) : Traced (Str × Bytes) :=
  match b.inner.dsseEnvelope with
  | none => plain (.error .verification)
  | some e =>
    andThen (plain (envelopeInit e)) fun _ =>
      andThen (dsseVerify env.crypto b.cert.pubKey e) fun _ =>
        andThen (plain (
          if b.entry.kind = "hashedrekord".toList ∧ b.entry.version = "0.0.2".toList then
            validateHashedrekordV002Dsse env b.cert b.entry e
          else if b.entry.kind = "dsse".toList ∧ b.entry.version = "0.0.1".toList then validateDsseV001 env b.cert b.entry e
          else .error .verification)) fun _ => plain (.ok (e.payloadType, e.payload))

/-- `Verifier.verify_dsse` (`verifier.py:378-438`) -/
def verifyDsse (env : Env) (now : Time) (v : Verifier) (b : Bundle) (policy : Cert → Py Unit) : Traced (Str × Bytes) :=
  andThen (verifyCommon env now v b policy) fun _ => checkDsse env b

end Sigstore.Work
