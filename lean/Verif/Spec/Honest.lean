import Verif.Spec.Rekor
import Verif.Spec.Signing
import Verif.Spec.SignedNote
import Verif.Spec.Verification

/-!
# Honest services

What Fulcio, its CT log, Rekor and the timestamp authorities do when they follow their specifications, as seen by one
client: RFC 6962 for the logs, signed notes for checkpoints, RFC 3161 for timestamps.  "Makes a signature" is stated as
"the scheme accepts it", so randomised schemes are covered.
-/

namespace Sigstore.Spec

open Sigstore.Trust Sigstore.LogEntry Sigstore.Dsse Sigstore.Sct Sigstore.Props Sigstore.Signing Sigstore.Rekor
open Sigstore.Rfc6962

/-- The client's key pairs: P-256, and a signature of a 32-byte digest is accepted under its public key. -/
structure CorrectKeys (c : Crypto) (kp : KeyPairs) : Prop where
  p256 : ∀ k, (kp.pub k).kind = .ec .p256
  accepted : ∀ k n d, d.length = 32 → c.ecdsa (kp.pub k) d (kp.sign k n d) = true
  nonempty : ∀ k n d, kp.sign k n d ≠ []

/-- the key of a service and the scheme it signs with -/
structure ServiceKey where
  pub : PubKey
  scheme : Scheme

/-- `sig` is a signature of `data` by the service -/
def ServiceKey.Signs (c : Crypto) (k : ServiceKey) (data sig : Bytes) : Prop := Accepts c k.pub k.scheme data sig

/-- the key is among the trusted keys, as the one in force for its id -/
def ServiceKey.TrustedIn (c : Crypto) (k : ServiceKey) (ms : List PublicKeyMsg) : Prop :=
  Effective c ms (c.sha256 k.pub.spki) k.pub k.scheme

/-- the service goes by this id: the id of its key (RFC 6962), or, for logs whose id is derived otherwise, one that no
trusted key has -/
def ServiceKey.GoesBy (c : Crypto) (k : ServiceKey) (ms : List PublicKeyMsg) (id : Bytes) : Prop :=
  id = c.sha256 k.pub.spki ∨ ∀ key s, ¬ Effective c ms id key s

/-- The certificate embeds one SCT for its precertificate, issued by `issuer`, signed by the CT log between November
2004 and January 2038. -/
def HonestSct (c : Crypto) (ct : ServiceKey) (cert issuer : Cert) : Prop :=
  ∃ sct, cert.scts = some [sct] ∧ sct.hashAlgorithm = some .sha256 ∧ sct.entryType = .preCertificate ∧
    sct.logId = c.sha256 ct.pub.spki ∧ 2 ^ 40 ≤ sct.timestamp ∧ sct.timestamp < 1000 * 2 ^ 31 ∧
    sct.extensionBytes.length < 2 ^ 16 ∧ cert.tbsPrecert.length < 2 ^ 24 ∧
    ct.Signs c (DigitallySigned.encode
      ⟨sct.version, sct.timestamp, .precert (c.sha256 issuer.pubKey.spki) cert.tbsPrecert, sct.extensionBytes⟩) sct.signature

/-- A certificate and chain as Fulcio issues them for a request: the requested key, the profile of a code signing
certificate, a chain that validates against the trusted certificates `store` during the certificate's validity, and an
SCT. -/
structure Issued (env : Env) (store : List Cert) (ct : ServiceKey) (csr : Csr) (cert : Cert) (chain : List Cert) :
    Prop where
  key : cert.pubKey = csr.pubKey
  loads : env.loadCert cert.der = some cert
  digitalSignature : ∃ ku, cert.keyUsage = some ku ∧ ku.digitalSignature = true
  codeSigning : ∃ l, cert.eku = some l ∧ .codeSigning ∈ l
  issuer : ∃ issuer, IssuerAcceptable issuer ∧ IssuerIn chain issuer ∧ HonestSct env.crypto ct cert issuer ∧
    ∀ t, cert.notBefore ≤ t → t ≤ cert.notAfter →
      ∃ chain', env.buildChain store t cert = some chain' ∧ IssuerIn chain' issuer

/-- A certificate's validity includes this time. -/
def _root_.Sigstore.Cert.ValidAt (cert : Cert) (t : Time) : Prop := cert.notBefore ≤ t ∧ t ≤ cert.notAfter

/-- An entry as Rekor returns it: it holds the body for the request, which is entry `i` of the log `D`; the inclusion
proof is the RFC 6962 audit path to the tree head of `D`, which is in a checkpoint signed by the log (and perhaps
others, whose key hints differ).  An entry of version 0.0.1 carries a promise signed by the log and the time of its
integration, when the certificate was valid; other entries carry no promise. -/
structure Logged (env : Env) (log : ServiceKey) (ms : List PublicKeyMsg) (cert : Cert) (request : EntryRequest)
    (entry : LogEntry) : Prop where
  body : ∃ r, Records env.crypto request r ∧ Holds env entry r
  logId : log.GoesBy env.crypto ms entry.logId
  proof : ∃ (D : List Bytes) (i : Nat) (ck : Checkpoint) (pre post : List NoteSig) (s : NoteSig),
    D[i]? = some entry.body ∧ D.length < 2 ^ 64 ∧
    ck.WF ∧ ck.size = D.length ∧ ck.root = mth env.crypto.sha256 D ∧
    (∀ x ∈ pre ++ s :: post, x.WF) ∧ (∀ x ∈ pre, x.hint ≠ entry.logId.take 4) ∧ s.hint = entry.logId.take 4 ∧
    log.Signs env.crypto (utf8 ck.noteText) s.sig ∧
    entry.proof = some { logIndex := i, treeSize := D.length, rootHash := mth env.crypto.sha256 D,
                         hashes := path env.crypto.sha256 i D, checkpoint := some (envelopeText ck (pre ++ s :: post)) }
  promised : entry.version = "0.0.1".toList → ∃ (set : Bytes) (t : Int), entry.promise = some set ∧
    entry.integratedTime = some t ∧ 0 < t ∧ t ≤ 253402300799 ∧ cert.ValidAt (t * 1000000) ∧
    0 ≤ entry.logIndex ∧ entry.logIndex < 2 ^ 53 ∧
    log.Signs env.crypto
      (utf8 (promiseText entry.body t entry.logId entry.logIndex)) set
  unpromised : entry.version ≠ "0.0.1".toList → entry.promise = none

/-- Fulcio follows its specification when it answers a request for a P-256 key. -/
def HonestFulcio (env : Env) (store : List Cert) (ct : ServiceKey) (fulcio : Csr → Py (Cert × List Cert)) : Prop :=
  ∀ csr, csr.pubKey.kind = .ec .p256 → ∀ cert chain, fulcio csr = .ok (cert, chain) → Issued env store ct csr cert chain

/-- Rekor follows its specification when it answers a request it can record. -/
def HonestLog (env : Env) (log : ServiceKey) (ms : List PublicKeyMsg) (cert : Cert) (rekor : EntryRequest → Py LogEntry) :
    Prop :=
  ∀ request, (∃ r, Records env.crypto request r) → ∀ entry, rekor request = .ok entry → Logged env log ms cert request entry

/-- A timestamp for `sig` as a trusted authority returns it, while the certificate was valid. -/
structure Timestamped (env : Env) (now : Time) (root : TrustedRoot Cert) (cert : Cert) (sig : Bytes) (t : Tsr) : Prop where
  decodes : env.decodeTsr t.raw = some t
  trusted : TrustedTsr env now root sig t
  valid : cert.ValidAt t.genTime

/-- The timestamp clients: each returns a timestamp or raises `TimestampError`; no two timestamps are equal; at most 32
clients. -/
structure HonestTsas (env : Env) (now : Time) (root : TrustedRoot Cert) (cert : Cert) (tsas : List (Bytes → Py Tsr)) :
    Prop where
  answers : ∀ tsa ∈ tsas, ∀ sig, tsa sig = .error .timestamp ∨
    ∃ t, tsa sig = .ok t ∧ Timestamped env now root cert sig t
  different : ∀ sig, (answered sig tsas).Nodup
  few : tsas.length ≤ 32

/-- every timestamp authority of the trusted root has a validity period and certificates -/
def ProperTsas (root : TrustedRoot Cert) : Prop :=
  ∀ ca ∈ root.timestampAuthorities, ca.validFor ≠ none ∧ ca.certificates ≠ []

/-- Verification of the bundle as the result of `call` comes down to the policy: it succeeds if the policy accepts the
certificate (returning the statement for an attestation) and otherwise fails like the policy. -/
def VerifiesUpToPolicy (env : Env) (now : Time) (v : Verifier) (b : Bundle) (policy : Cert → Py Unit) : Call → Prop
  | .artifact input => verifyArtifact env now v input b policy = policy b.cert
  | .dsse stmt => verifyDsse env now v b policy =
      (policy b.cert).map fun _ => ("application/vnd.in-toto+json".toList, stmt.contents)

/-- what can be signed: an input, or its SHA-256 digest, or a statement -/
def CanSign : Call → Prop
  | .artifact (.hashed h) => h.algorithm = .sha2_256 ∧ h.digest.length = 32
  | _ => True

end Sigstore.Spec
