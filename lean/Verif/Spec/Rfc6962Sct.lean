import Verif.Prelude.BigEndian

/-!
# The digitally-signed structure of an SCT, RFC 6962 section 3.2

TLS presentation language (RFC 5246 section 4): integers are big-endian, variable-length vectors carry a
length prefix wide enough for their maximum length.
-/

namespace Sigstore.Spec

/-- `opaque x<..2^(8k)-1>` -/
def tlsVector (k : Nat) (b : Bytes) : Bytes := beBytes k b.length ++ b

/-- `select (entry_type)`: an `ASN.1Cert` or a `PreCert` -/
inductive SignedEntry where
  | x509 (cert : Bytes)
  | precert (issuerKeyHash tbs : Bytes)
deriving DecidableEq, Repr

/-- the fields under the signature; `signature_type` is the constant `certificate_timestamp(0)` -/
structure DigitallySigned where
  sctVersion : UInt8
  timestamp : Nat
  entry : SignedEntry
  extensions : Bytes
deriving DecidableEq, Repr

/-- `entry_type` (`x509_entry(0)`, `precert_entry(1)`, two bytes) and the signed entry -/
def SignedEntry.encode : SignedEntry → Bytes
  | .x509 cert => [0, 0] ++ tlsVector 3 cert
  | .precert h tbs => [0, 1] ++ h ++ tlsVector 3 tbs

/-- the structure as bytes -/
def DigitallySigned.encode (d : DigitallySigned) : Bytes :=
  [d.sctVersion] ++ [0] ++ beBytes 8 d.timestamp ++ d.entry.encode ++ tlsVector 2 d.extensions

/-- the size limits of the entry -/
def SignedEntry.Valid : SignedEntry → Prop
  | .x509 cert => cert.length < 2 ^ 24
  | .precert h tbs => h.length = 32 ∧ tbs.length < 2 ^ 24

/-- the size limits of the structure -/
def DigitallySigned.Valid (d : DigitallySigned) : Prop :=
  d.timestamp < 2 ^ 64 ∧ d.entry.Valid ∧ d.extensions.length < 2 ^ 16

end Sigstore.Spec
