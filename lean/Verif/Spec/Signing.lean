import Verif.Model.Signer

/-!
# What a signing call should have produced
-/

namespace Sigstore.Spec

open Sigstore.Signing Sigstore.Dsse

/-- The bundle's content is what was asked for, signed with the `k`-th private key. -/
def SignedWith (c : Crypto) (kp : KeyPairs) (b : Bundle) (k nonce : Nat) : Call → Prop
  | .artifact input =>
    b.inner.dsseEnvelope = none ∧
    b.inner.messageSignature = some ⟨some (sha256Digest c input).digest, kp.sign k nonce (sha256Digest c input).digest⟩
  | .dsse stmt =>
    b.inner.messageSignature = none ∧
    b.inner.dsseEnvelope = some ⟨stmt.contents, "application/vnd.in-toto+json".toList,
      [kp.sign k nonce (c.sha256 (pae "application/vnd.in-toto+json".toList stmt.contents))]⟩

/-- The certificate is what Fulcio returned for a request with the `k`-th public key, while the token was valid. -/
def IssuedFor (kp : KeyPairs) (a : Answers) (k : Nat) (cert : Cert) : Prop :=
  a.tokenValid = true ∧ ∃ chain, a.fulcio ⟨kp.pub k⟩ = .ok (cert, chain)

/-- the timestamps of the authorities that answered, in order -/
def answered (signature : Bytes) (tsas : List (Bytes → Py Tsr)) : List Tsr :=
  tsas.filterMap fun tsa => (tsa signature).toOption

end Sigstore.Spec
