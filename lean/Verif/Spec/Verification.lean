import Verif.Model.Verifier
import Verif.Props.Sct
import Verif.Props.LogEntry
import Verif.Props.Dsse
import Verif.Props.KeyDetails

/-!
# Declarative specification of bundle verification

What has to hold for a bundle to be accepted, stated without reference to the control flow of
`verifier.py`.  The sub-checks (SCT, log entry) are given by their own specifications.
-/

namespace Sigstore.Spec

open Sigstore.Trust Sigstore.LogEntry Sigstore.Dsse Sigstore.Sct Sigstore.Props

/-- The signature of a bundle: that of its envelope, if it has one, or of its message. -/
def SignatureOf (m : BundleMsg) (sig : Bytes) : Prop :=
  (∃ e, m.dsseEnvelope = some e ∧ e.signatures = [sig] ∧ sig ≠ []) ∨
  (m.dsseEnvelope = none ∧ ∃ ms, m.messageSignature = some ms ∧ ms.signature = sig)

/-- An authority vouches for a timestamp of `message`: it has at least a signing and a root certificate, its
period has started, it verifies the timestamp, and the time of the timestamp lies in the period (end
excluded). -/
def Vouches (env : Env) (now : Time) (message : Bytes) (tsr : Tsr) (ca : CertificateAuthority Cert) : Prop :=
  ∃ leaf mid root period, ca.certificates = leaf :: (mid ++ [root]) ∧ ca.validFor = some period ∧
    period.start ≤ now ∧ env.verifyTsr leaf root mid tsr message = true ∧
    period.start ≤ tsr.genTime ∧ ∀ e, period.stop = some e → tsr.genTime < e

/-- Some trusted authority vouches for the timestamp. -/
def TrustedTsr (env : Env) (now : Time) (root : TrustedRoot Cert) (message : Bytes) (tsr : Tsr) : Prop :=
  ∃ ca ∈ root.timestampAuthorities, Vouches env now message tsr ca

/-- The time contributed by the log, if any: the integrated time counts when it is present, non-zero and
accompanied by a promise, which is only allowed for `dsse` and `hashedrekord` entries of version 0.0.1. -/
def LogTimeOf (e : LogEntry) (l : List Time) : Prop :=
  (∃ t, e.integratedTime = some t ∧ t ≠ 0 ∧ e.promise ≠ none ∧
    (e.kind = "dsse".toList ∨ e.kind = "hashedrekord".toList) ∧ e.version = "0.0.1".toList ∧
    -62135596800 ≤ t ∧ t ≤ 253402300799 ∧ l = [t * 1000000]) ∨
  ((e.promise = none ∨ e.integratedTime = none ∨ e.integratedTime = some 0) ∧ l = [])

open Classical in
/-- `times` are the verified times of the bundle: those of its trusted timestamps, in order, and that of the
log.  If there are timestamps, there must be authorities, and at most 32 timestamps, all different. -/
def TimesOf (env : Env) (now : Time) (root : TrustedRoot Cert) (b : Bundle) (times : List Time) : Prop :=
  ∃ tsrs sig logTimes, b.inner.timestamps.map env.decodeTsr = tsrs.map some ∧
    (tsrs ≠ [] → root.timestampAuthorities ≠ [] ∧ (∀ ca ∈ root.timestampAuthorities, ca.certificates ≠ []) ∧
      tsrs.length ≤ 32 ∧ tsrs.Nodup ∧ SignatureOf b.inner sig) ∧
    LogTimeOf b.entry logTimes ∧
    times = ((tsrs.filter fun t => decide (TrustedTsr env now root sig t)).map Tsr.genTime) ++ logTimes

/-- the keys whose validity period, if any, has started -/
def startedKeys (now : Time) (ms : List PublicKeyMsg) : List PublicKeyMsg :=
  ms.filter fun m => match m.validFor with | none => true | some r => decide (r.start ≤ now)

/-- the certificate embeds exactly one SCT, made with SHA-256, whose signature over the RFC 6962 structure for this
certificate and `chain` the trusted CT logs accept (see C26, C27) -/
def SctOk (env : Env) (now : Time) (root : TrustedRoot Cert) (cert : Cert) (chain : List Cert) : Prop :=
  startedKeys now root.ctlogs ≠ [] ∧
  ∃ sct ik entry, cert.scts = some [sct] ∧ sct.hashAlgorithm = some .sha256 ∧ BoundTo env.crypto sct chain ik ∧
    EntryFor sct cert ik entry ∧ entry.Valid ∧ sct.timestamp ≤ lastMillisecond ∧
    sct.extensionBytes.length < 2 ^ 16 ∧
    KeysAccept env.crypto (startedKeys now root.ctlogs) sct.logId
      (DigitallySigned.encode ⟨sct.version, sctMillis sct.timestamp, entry, sct.extensionBytes⟩) sct.signature

/-- the log entry has an inclusion proof that passes the Merkle check (see C01-C03) and whose checkpoint is signed
by a trusted log (see C05, C07); its promise, if it comes with a time, is accepted as a signature of the
entry's body, time, log id and index (see C08) -/
def EntryOk (env : Env) (now : Time) (root : TrustedRoot Cert) (e : LogEntry) : Prop :=
  startedKeys now root.tlogs ≠ [] ∧
  ∃ p kr, e.proof = some p ∧ Merkle.verifyMerkleInclusion env.crypto.sha256 e.body p = .ok () ∧
    Keyring.init env.crypto (startedKeys now root.tlogs) = .ok kr ∧
    Checkpoint.verifyCheckpoint env.pyInt env.crypto kr e.logId p = .ok () ∧
    ∀ set t, e.promise = some set → e.integratedTime = some t → t ≠ 0 → JsonSafe t ∧ JsonSafe e.logIndex ∧
      KeysAccept env.crypto (startedKeys now root.tlogs) e.logId
        (utf8 (promiseText e.body t e.logId e.logIndex)) set

/-- What artifact and attestation verification have in common. -/
structure CommonOk (env : Env) (now : Time) (v : Verifier) (b : Bundle) (policy : Cert → Py Unit)
    (times : List Time) : Prop where
  timesOf : TimesOf env now v.root b times
  enough : times ≠ []
  /-- the chain validates at every verified time -/
  chains : ∀ t ∈ times, ∃ chain, env.buildChain v.fulcioCerts t b.cert = some chain
  /-- the SCT is checked with the chain of the last time -/
  sct : ∃ t chain, times.getLast? = some t ∧ env.buildChain v.fulcioCerts t b.cert = some chain ∧
    SctOk env now v.root b.cert chain
  digitalSignature : ∃ ku, b.cert.keyUsage = some ku ∧ ku.digitalSignature = true
  codeSigning : ∃ l, b.cert.eku = some l ∧ .codeSigning ∈ l
  policy : policy b.cert = .ok ()
  entry : EntryOk env now v.root b.entry
  window : ∀ t ∈ times, b.cert.notBefore ≤ t ∧ t ≤ b.cert.notAfter

/-- The log entry is the `hashedrekord` entry of this digest, signature and certificate. -/
def HashedrekordFor (env : Env) (entry : LogEntry) (cert : Cert) (alg : HashAlgorithm) (digest sig : Bytes) : Prop :=
  entry.kind = "hashedrekord".toList ∧
  ((entry.version = "0.0.1".toList ∧ alg = .sha2_256 ∧
      env.parseHashedrekord entry.body = some ⟨"0.0.1".toList, some (b64Encode sig), some (base64EncodePemCert cert),
        some ("sha256".toList, hexEncode digest)⟩) ∨
   (entry.version = "0.0.2".toList ∧ ∃ kd hf, Registered cert.pubKey.kind kd hf ∧
      env.parseV2 entry.body = some ⟨"hashedrekord".toList, "0.0.2".toList,
        some ⟨alg, digest, sig, .x509 cert.der, kd⟩⟩))

/-- The bundle's message signature is a signature of `h` by the certificate's key, and was logged. -/
def ArtifactOk (env : Env) (b : Bundle) (h : Hashed) : Prop :=
  ∃ ms, b.inner.messageSignature = some ms ∧ (∀ d, ms.digest = some d → d = h.digest) ∧
    h.algorithm = .sha2_256 ∧ h.digest.length = 32 ∧ (∃ curve, b.cert.pubKey.kind = .ec curve) ∧
    env.crypto.ecdsa b.cert.pubKey h.digest ms.signature = true ∧
    HashedrekordFor env b.entry b.cert .sha2_256 h.digest ms.signature

/-- The log entry commits to the envelope: a `dsse` 0.0.1 entry to its payload, a `hashedrekord` 0.0.2 entry to
its pre-authentication encoding; both to the signature and the certificate. -/
def DsseLogged (env : Env) (entry : LogEntry) (cert : Cert) (e : EnvelopeMsg) (sig : Bytes) : Prop :=
  (entry.kind = "dsse".toList ∧ entry.version = "0.0.1".toList ∧
    env.parseDsse entry.body = some ⟨some ("sha256".toList, hexEncode (env.crypto.sha256 e.payload)),
      some [(b64Encode sig, base64EncodePemCert cert)]⟩) ∨
  (entry.kind = "hashedrekord".toList ∧ entry.version = "0.0.2".toList ∧ ∃ kd alg hf,
    Registered cert.pubKey.kind kd (some (alg, hf)) ∧
    env.parseV2 entry.body = some ⟨"hashedrekord".toList, "0.0.2".toList,
      some ⟨alg, env.crypto.hash hf (Dsse.pae e.payloadType e.payload), sig, .x509 cert.der, kd⟩⟩)

/-- The bundle's envelope has one signature, by the certificate's key, and was logged. -/
def DsseOk (env : Env) (b : Bundle) (type_ : Str) (payload : Bytes) : Prop :=
  ∃ e sig, b.inner.dsseEnvelope = some e ∧ e.payloadType = type_ ∧ e.payload = payload ∧
    e.signatures = [sig] ∧ sig ≠ [] ∧ (∃ curve, b.cert.pubKey.kind = .ec curve) ∧
    env.crypto.ecdsa b.cert.pubKey (env.crypto.sha256 (Dsse.pae type_ payload)) sig = true ∧
    DsseLogged env b.entry b.cert e sig

end Sigstore.Spec
