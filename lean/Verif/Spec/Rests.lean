import Verif.Model.Work

/-!
# Specification: what a verdict rests on
-/

namespace Sigstore.Spec

open Sigstore.Work

/-- other libraries for the checks: signatures, timestamps and paths -/
structure Checks where
  rsaPkcs1 : PubKey → HashAlg → Bytes → Bytes → Bool
  ecdsa : PubKey → Bytes → Bytes → Bool
  ed25519 : PubKey → Bytes → Bytes → Bool
  verifyTsr : Cert → Cert → List Cert → Tsr → Bytes → Bool
  buildChain : List Cert → Time → Cert → Option (List Cert)

/-- the environment with other libraries for the checks -/
def withChecks (env : Env) (k : Checks) : Env :=
  { env with
    crypto := { env.crypto with rsaPkcs1 := k.rsaPkcs1, ecdsa := k.ecdsa, ed25519 := k.ed25519 }
    verifyTsr := k.verifyTsr
    buildChain := k.buildChain }

/-- both give the same answer to a check -/
def AnsweredAlike (env : Env) (k : Checks) : Call → Prop
  | .chain store time cert => k.buildChain store time cert = env.buildChain store time cert
  | .timestamp leaf root intermediates tsr message =>
    k.verifyTsr leaf root intermediates tsr message = env.verifyTsr leaf root intermediates tsr message
  | .rsa key algorithm digest signature =>
    k.rsaPkcs1 key algorithm digest signature = env.crypto.rsaPkcs1 key algorithm digest signature
  | .ecdsa key digest signature => k.ecdsa key digest signature = env.crypto.ecdsa key digest signature
  | .ed25519 key message signature => k.ed25519 key message signature = env.crypto.ed25519 key message signature
  | .hash => True

/-- the key of one of the trusted logs or of the signing certificate -/
def TrustedKey (env : Env) (root : Trust.TrustedRoot Cert) (b : Bundle) (key : PubKey) : Prop :=
  key = b.cert.pubKey ∨
  ∃ log ∈ root.ctlogs ++ root.tlogs, ∃ raw, log.rawBytes = some raw ∧ env.crypto.loadDerPublicKey raw = some key

/-- a check that asks only about the bundle, with what is trusted -/
def AsksTrusted (env : Env) (v : Verifier) (b : Bundle) : Call → Prop
  | .chain store _ cert => store = v.fulcioCerts ∧ cert = b.cert
  | .timestamp leaf root intermediates tsr message =>
    (∃ ca ∈ v.root.timestampAuthorities, leaf :: (intermediates ++ [root]) = ca.certificates) ∧
    (∃ raw ∈ b.inner.timestamps, env.decodeTsr raw = some tsr) ∧ b.signature = .ok message
  | .rsa key .. => TrustedKey env v.root b key
  | .ecdsa key .. => TrustedKey env v.root b key
  | .ed25519 key .. => TrustedKey env v.root b key
  | .hash => True

end Sigstore.Spec
