import Verif.Prelude.Basic

/-!
# Cryptographic primitives as parameters

The `cryptography` and `hashlib` operations used by sigstore-python.  All of them stay abstract: the
theorems quantify over every `Crypto`, and where a law is needed it is an explicit hypothesis.
-/

namespace Sigstore

/-- digest algorithms -/
inductive HashAlg where
  | sha256 | sha384 | sha512
deriving DecidableEq, Repr

/-- elliptic curves -/
inductive Curve where
  | p256 | p384 | p521
  | other (tag : Nat)
deriving DecidableEq, Repr

/-- the class of a public key object of `cryptography` -/
inductive KeyKind where
  | rsa (bits : Nat)
  | ec (curve : Curve)
  | ed25519
  /-- any other key class (DSA, X25519, ...) -/
  | other (tag : Nat)
deriving DecidableEq, Repr

/-- A public key: its class and its DER `SubjectPublicKeyInfo`. -/
structure PubKey where
  kind : KeyKind
  spki : Bytes
deriving DecidableEq, Repr

/-- `isinstance(key, rsa.RSAPublicKey)` -/
def PubKey.isRsa (k : PubKey) : Bool := match k.kind with | .rsa _ => true | _ => false
/-- `isinstance(key, ec.EllipticCurvePublicKey)` -/
def PubKey.isEc (k : PubKey) : Bool := match k.kind with | .ec _ => true | _ => false
/-- `isinstance(key, ed25519.Ed25519PublicKey)` -/
def PubKey.isEd25519 (k : PubKey) : Bool := match k.kind with | .ed25519 => true | _ => false

/-- The primitives.  A `Bool` result `false` stands for `InvalidSignature`; no other exception is
modelled for the three verification functions. -/
structure Crypto where
  sha256 : Bytes → Bytes
  sha384 : Bytes → Bytes
  sha512 : Bytes → Bytes
  /-- RSA PKCS#1 v1.5 over a digest made with the given algorithm -/
  rsaPkcs1 : PubKey → HashAlg → Bytes → Bytes → Bool
  /-- ECDSA over a digest -/
  ecdsa : PubKey → Bytes → Bytes → Bool
  /-- Ed25519 over the message -/
  ed25519 : PubKey → Bytes → Bytes → Bool
  /-- `serialization.load_der_public_key`; `none` stands for any exception -/
  loadDerPublicKey : Bytes → Option PubKey

/-- `hashlib` by algorithm -/
def Crypto.hash (c : Crypto) : HashAlg → Bytes → Bytes
  | .sha256 => c.sha256
  | .sha384 => c.sha384
  | .sha512 => c.sha512

end Sigstore
