import Verif.Spec.Identity
import Verif.Spec.Rfc6962
import Verif.Spec.SignedNote
import Verif.Spec.Verification

/-!
# What verification is meant to establish about the world

A history of what signers, the certificate authority, the logs and the timestamp authorities really did, and what it
means that each of them can be trusted.  Nothing here refers to the steps of verification: the history only mentions
events, and trust in a service says which events its signatures stand for.
-/

namespace Sigstore.Spec

open Sigstore.Trust Sigstore.LogEntry Sigstore.Rfc6962

/-- What happened. -/
structure History where
  /-- somebody who had the private key of `key` made this signature of a digest at this time -/
  signed : (key : PubKey) → (digest sig : Bytes) → Time → Prop
  /-- somebody knew this byte string at this time -/
  known : Bytes → Time → Prop
  /-- the certificate authority issued this certificate -/
  issued : Cert → Prop
  /-- at this time somebody logged in as `identity` at the identity provider `issuer` and proved to have the private
  key of `key` -/
  authenticated : (identity issuer : Str) → (key : PubKey) → Time → Prop
  /-- the entries of the transparency log with this key -/
  log : PubKey → List Bytes
  /-- the certificate transparency log with this key took responsibility for this -/
  promised : PubKey → DigitallySigned → Prop

/-- Signatures cannot be made without the private key: a valid signature that was known at a time had been made by
somebody with the key. -/
def Unforgeable (c : Crypto) (h : History) : Prop :=
  ∀ key digest sig t, c.ecdsa key digest sig = true → h.known sig t → ∃ τ, τ ≤ t ∧ h.signed key digest sig τ

/-- Certificates that chain to the store were issued by the authority, which issues them when somebody with the key has
logged in as the subject, and names the identity provider truthfully. -/
structure TrustworthyCa (env : Env) (store : List Cert) (h : History) : Prop where
  issues : ∀ t cert chain, env.buildChain store t cert = some chain → h.issued cert
  authenticates : ∀ cert, h.issued cert → ∃ issuer, (∀ i, Claims cert .oidcIssuer i → i = issuer) ∧
    ∀ identity, IssuedTo cert identity → h.authenticated identity issuer cert.pubKey cert.notBefore

/-- A log signs two things: promises for entries that it has got, with the time when it got them, and checkpoints, that
is, tree heads of its entries so far. -/
def TrustworthyLog (c : Crypto) (h : History) (key : PubKey) (s : Scheme) : Prop :=
  ∀ data sig, Accepts c key s data sig →
    (∃ body t id i, data = utf8 (promiseText body t id i) ∧ h.known body (t * 1000000)) ∨
    (∃ ck : Checkpoint, ck.WF ∧ ck.size ≤ (h.log key).length ∧ ck.root = mth c.sha256 ((h.log key).take ck.size) ∧
      data = utf8 ck.noteText)

/-- every trusted log can be trusted -/
def TrustworthyLogs (c : Crypto) (ms : List PublicKeyMsg) (h : History) : Prop :=
  ∀ m ∈ ms, ∀ key s, Denotes c m key s → TrustworthyLog c h key s

/-- every trusted certificate transparency log only signs certificates that it takes responsibility for -/
def TrustworthyCtLogs (c : Crypto) (ms : List PublicKeyMsg) (h : History) : Prop :=
  ∀ m ∈ ms, ∀ key s, Denotes c m key s → ∀ data sig, Accepts c key s data sig →
    ∃ d : DigitallySigned, d.Valid ∧ data = d.encode ∧ h.promised key d

/-- timestamps of trusted authorities are for what was known then -/
def TrustworthyTsas (env : Env) (now : Time) (root : TrustedRoot Cert) (h : History) : Prop :=
  ∀ message tsr, TrustedTsr env now root message tsr → h.known message tsr.genTime

/-- the signature can be read off the body of a log entry -/
def Reveals (env : Env) (body sig : Bytes) : Prop :=
  (∃ r, env.parseHashedrekord body = some r ∧ r.content = some (b64Encode sig)) ∨
  (∃ r l, env.parseDsse body = some r ∧ r.signatures = some l ∧ b64Encode sig ∈ l.map Prod.fst) ∨
  (∃ e r, env.parseV2 body = some e ∧ e.hashedRekord = some r ∧ r.signature = sig)

/-- who knows the body of an entry, knows the signature in it -/
def Readable (env : Env) (h : History) : Prop :=
  ∀ body sig t, Reveals env body sig → h.known body t → h.known sig t

/-- everything that the verifier has to trust -/
structure Trustworthy (env : Env) (now : Time) (v : Verifier) (h : History) : Prop where
  signatures : Unforgeable env.crypto h
  ca : TrustworthyCa env v.fulcioCerts h
  logs : TrustworthyLogs env.crypto v.root.tlogs h
  tsas : TrustworthyTsas env now v.root h
  entries : Readable env h

/-- Somebody with the private key of `key` logged in as `identity` (at the given identity provider, if there is one) when
the certificate's validity began, and somebody with that private key signed the digest before its validity ended. -/
def SignedBy (h : History) (cert : Cert) (identity : Str) (issuer : Option Str) (digest : Bytes) : Prop :=
  ∃ iss sig τ, (∀ i, issuer = some i → i ≠ [] → i = iss) ∧
    h.authenticated identity iss cert.pubKey cert.notBefore ∧
    h.signed cert.pubKey digest sig τ ∧ τ ≤ cert.notAfter

end Sigstore.Spec
