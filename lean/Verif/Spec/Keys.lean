import Verif.Model.Trust

/-!
# What a trusted public-key message means

Declarative reading of the protobuf-specs algorithm registry, restricted to the identifiers that the
client supports.
-/

namespace Sigstore.Spec

open Sigstore.Trust (KeyDetails PublicKeyMsg)

/-- signature schemes -/
inductive Scheme where
  | rsaPkcs1Sha256
  | ecdsa (h : HashAlg)
  | ed25519
deriving DecidableEq, Repr

/-- the supported algorithm identifiers -/
inductive SchemeOf : KeyDetails → Scheme → Prop
  | rsaLegacy : SchemeOf .pkcs1RsaPkcs1v5 .rsaPkcs1Sha256
  | rsa2048 : SchemeOf .pkixRsaPkcs1v15_2048Sha256 .rsaPkcs1Sha256
  | rsa3072 : SchemeOf .pkixRsaPkcs1v15_3072Sha256 .rsaPkcs1Sha256
  | rsa4096 : SchemeOf .pkixRsaPkcs1v15_4096Sha256 .rsaPkcs1Sha256
  | p256 : SchemeOf .pkixEcdsaP256Sha256 (.ecdsa .sha256)
  | p384 : SchemeOf .pkixEcdsaP384Sha384 (.ecdsa .sha384)
  | p521 : SchemeOf .pkixEcdsaP521Sha512 (.ecdsa .sha512)
  | ed25519 : SchemeOf .pkixEd25519 .ed25519

/-- the key class a scheme works with -/
inductive Fits : Scheme → KeyKind → Prop
  | rsa (bits) : Fits .rsaPkcs1Sha256 (.rsa bits)
  | ec (h curve) : Fits (.ecdsa h) (.ec curve)
  | ed25519 : Fits .ed25519 .ed25519

/-- `sig` is a valid signature of `data` under `key` in the given scheme -/
def Accepts (c : Crypto) (key : PubKey) : Scheme → (data sig : Bytes) → Prop
  | .rsaPkcs1Sha256, data, sig => c.rsaPkcs1 key .sha256 (c.sha256 data) sig = true
  | .ecdsa .sha256, data, sig => c.ecdsa key (c.sha256 data) sig = true
  | .ecdsa .sha384, data, sig => c.ecdsa key (c.sha384 data) sig = true
  | .ecdsa .sha512, data, sig => c.ecdsa key (c.sha512 data) sig = true
  | .ed25519, data, sig => c.ed25519 key data sig = true

/-- The message denotes this public key, to be used with this scheme. -/
def Denotes (c : Crypto) (m : PublicKeyMsg) (key : PubKey) (s : Scheme) : Prop :=
  ∃ raw, m.rawBytes = some raw ∧ raw ≠ [] ∧ c.loadDerPublicKey raw = some key ∧
    SchemeOf m.keyDetails s ∧ Fits s key.kind

/-- Among the messages, the last usable one with key id `id` denotes `key` and `s`. -/
def Effective (c : Crypto) (ms : List PublicKeyMsg) (id : Bytes) (key : PubKey) (s : Scheme) : Prop :=
  ∃ pre m post, ms = pre ++ m :: post ∧ Denotes c m key s ∧ c.sha256 key.spki = id ∧
    ∀ m' ∈ post, ∀ key' s', Denotes c m' key' s' → c.sha256 key'.spki ≠ id

/-- A set of trusted keys accepts a signature made under a key id: if it has a key with this id, that key does;
otherwise one of its keys does. -/
def KeysAccept (c : Crypto) (ms : List PublicKeyMsg) (id data sig : Bytes) : Prop :=
  (∃ key s, Effective c ms id key s ∧ Accepts c key s data sig) ∨
  ((∀ key s, ¬ Effective c ms id key s) ∧ ∃ id' key s, Effective c ms id' key s ∧ Accepts c key s data sig)

end Sigstore.Spec
