import Verif.Prelude.Crypto
import Verif.Prelude.Dict

/-!
# Model of `/repo/sigstore/_internal/trust.py`, `is_timerange_valid` and the trusted-root accessors
-/

namespace Sigstore.Trust

/-- `sigstore_models.common.v1.PublicKeyDetails`, the algorithm identifiers of protobuf-specs. -/
inductive KeyDetails where
  | unspecified
  | pkcs1RsaPkcs1v5
  | pkcs1RsaPss
  | pkixRsaPkcs1v5
  | pkixRsaPss
  | pkixEcdsaP256Sha256
  | pkixEcdsaP256HmacSha256
  | pkixEd25519
  | pkixEd25519Ph
  | pkixRsaPkcs1v15_2048Sha256
  | pkixRsaPkcs1v15_3072Sha256
  | pkixRsaPkcs1v15_4096Sha256
  | pkixEcdsaP384Sha384
  | pkixEcdsaP521Sha512
  | lmsSha256
  | lmotsSha256
  | pkixRsaPss2048Sha256
  | pkixRsaPss3072Sha256
  | pkixRsaPss4096Sha256
  | pkixEcdsaP384Sha256
  | pkixEcdsaP521Sha256
  | mlDsa65
  | mlDsa87
deriving DecidableEq, Repr

/-- `sigstore_models.common.v1.TimeRange`: a start and an optional end. -/
structure TimeRange where
  start : Time
  stop : Option Time
deriving DecidableEq, Repr

/-- `sigstore_models.common.v1.PublicKey`. -/
structure PublicKeyMsg where
  rawBytes : Option Bytes
  keyDetails : KeyDetails
  validFor : Option TimeRange
deriving DecidableEq, Repr

/-- `is_timerange_valid` (`/repo/sigstore/_utils.py:360-379`) at clock reading `now`. -/
def isTimerangeValid (now : Time) (period : Option TimeRange) (allowExpired : Bool) : Bool :=
  match period with
  | none => true
  | some p =>
    if now < p.start then false
    else allowExpired || (match p.stop with | none => true | some e => decide (now ≤ e))

/-- A loaded key, `Key` (`trust.py:57-65`). -/
structure Key where
  hashAlgorithm : Option HashAlg
  key : PubKey
  keyId : Bytes
deriving DecidableEq, Repr

/-- `Key._RSA_SHA_256_DETAILS` (`trust.py:67-72`). -/
def rsaSha256Details : List KeyDetails :=
  [.pkcs1RsaPkcs1v5, .pkixRsaPkcs1v15_2048Sha256, .pkixRsaPkcs1v15_3072Sha256,
   .pkixRsaPkcs1v15_4096Sha256]

/-- `Key._EC_DETAILS_TO_HASH` (`trust.py:74-78`). -/
def ecDetailsToHash : Dict KeyDetails HashAlg :=
  [(.pkixEcdsaP256Sha256, .sha256), (.pkixEcdsaP384Sha384, .sha384), (.pkixEcdsaP521Sha512, .sha512)]

/-- `load_der_public_key` (`/repo/sigstore/_utils.py:96-117`) restricted to the classes selected by
`types`. -/
def loadDerPublicKey (c : Crypto) (der : Bytes) (types : PubKey → Bool) : Py PubKey :=
  match c.loadDerPublicKey der with
  | none => .error .verification
  | some key => if types key then .ok key else .error .verification

/-- `key_id` (`/repo/sigstore/_utils.py:143-154`). -/
def pubKeyId (c : Crypto) (key : PubKey) : Bytes := c.sha256 key.spki

/-- `Key.__init__` (`trust.py:80-109`). `not public_key.raw_bytes` holds for `None` and for `b""`. -/
def Key.init (c : Crypto) (pk : PublicKeyMsg) : Py Key :=
  match pk.rawBytes with
  | none => .error .verification
  | some [] => .error .verification
  | some (b :: bs) =>
    let raw := b :: bs
    if pk.keyDetails ∈ rsaSha256Details then do
      let key ← loadDerPublicKey c raw PubKey.isRsa
      pure { hashAlgorithm := some .sha256, key := key, keyId := pubKeyId c key }
    else
      match ecDetailsToHash.get? pk.keyDetails with
      | some h => do
        let key ← loadDerPublicKey c raw PubKey.isEc
        pure { hashAlgorithm := some h, key := key, keyId := pubKeyId c key }
      | none =>
        if pk.keyDetails = .pkixEd25519 then do
          let key ← loadDerPublicKey c raw PubKey.isEd25519
          pure { hashAlgorithm := none, key := key, keyId := pubKeyId c key }
        else .error .verification

/-- `Key.verify` (`trust.py:111-142`). -/
def Key.verify (c : Crypto) (k : Key) (signature data : Bytes) : Py Unit :=
  let raiseUnless (b : Bool) : Py Unit := if b then .ok () else .error .invalidSignature
  if k.key.isRsa then
    match k.hashAlgorithm with
    | some h => raiseUnless (c.rsaPkcs1 k.key h (c.hash h data) signature)
    | none => .error .verification
  else if k.key.isEc then
    match k.hashAlgorithm with
    | some h => raiseUnless (c.ecdsa k.key (c.hash h data) signature)
    | none => .error .verification
  else if k.key.isEd25519 then
    match k.hashAlgorithm with
    | none => raiseUnless (c.ed25519 k.key data signature)
    | some _ => .error .verification
  else .error .verification

/-- `Keyring` (`trust.py:145-161`): loaded keys by key id. -/
abbrev Keyring := Dict Bytes Key

/-- `Keyring.__init__` (`trust.py:150-161`): keys that fail to load with `VerificationError` are
skipped; any other exception would propagate. -/
def Keyring.initFrom (c : Crypto) (kr : Keyring) : List PublicKeyMsg → Py Keyring
  | [] => .ok kr
  | pk :: pks =>
    match Key.init c pk with
    | .ok key => Keyring.initFrom c (Dict.set kr key.keyId key) pks
    | .error e => if e.isVerificationError then Keyring.initFrom c kr pks else .error e

/-- `Keyring(public_keys)` -/
def Keyring.init (c : Crypto) (pks : List PublicKeyMsg) : Py Keyring := Keyring.initFrom c [] pks

/-- The candidate loop of `Keyring.verify` (`trust.py:181-187`): `true` when a candidate accepted. -/
def tryCandidates (c : Crypto) (signature data : Bytes) : List Key → Py Bool
  | [] => .ok false
  | k :: ks =>
    match k.verify c signature data with
    | .ok () => .ok true
    | .error .invalidSignature => tryCandidates c signature data ks
    | .error e => .error e

/-- `Keyring.verify` (`trust.py:163-190`). -/
def Keyring.verify (c : Crypto) (kr : Keyring) (keyId signature data : Bytes) : Py Unit :=
  let candidates := match Dict.get? kr keyId with
    | some key => [key]
    | none => Dict.values kr
  match tryCandidates c signature data candidates with
  | .error e => .error e
  | .ok true => .ok ()
  | .ok false => .error .verification

/-! ## Trusted root accessors (`/repo/sigstore/models.py:793-900`)

Certificates are an arbitrary type `χ`; parsing them (`load_der_x509_certificate`) has already
happened, so a `CertificateAuthority` carries parsed certificates. -/

/-- `KeyringPurpose` (`trust.py:197-207`). -/
inductive Purpose where
  | sign | verify
deriving DecidableEq, Repr

/-- `CertificateAuthority` (`trust.py:210-268`) with its certificates already parsed. -/
structure CertificateAuthority (χ : Type) where
  validFor : Option TimeRange
  certificates : List χ

/-- `CertificateAuthority.__init__/_verify` (`trust.py:215-243`). -/
def CertificateAuthority.init {χ : Type} (ca : CertificateAuthority χ) : Py (CertificateAuthority χ) :=
  if ca.certificates.isEmpty then .error .error else .ok ca

/-- `CertificateAuthority.certificates` (`trust.py:259-268`). -/
def CertificateAuthority.certs {χ : Type} (now : Time) (ca : CertificateAuthority χ) (allowExpired : Bool) :
    List χ :=
  if isTimerangeValid now ca.validFor allowExpired then ca.certificates else []

/-- `TrustedRoot` (`/repo/sigstore/models.py:793-828`): log keys and certificate authorities.
Only the public key of a transparency log instance is read. -/
structure TrustedRoot (χ : Type) where
  tlogs : List PublicKeyMsg
  ctlogs : List PublicKeyMsg
  certificateAuthorities : List (CertificateAuthority χ)
  timestampAuthorities : List (CertificateAuthority χ)

/-- `TrustedRoot._get_tlog_keys` (`models.py:839-853`).  Simplification: one clock reading for the
whole iteration. -/
def getTlogKeys (now : Time) (tlogs : List PublicKeyMsg) (purpose : Purpose) : List PublicKeyMsg :=
  tlogs.filter fun t => isTimerangeValid now t.validFor (purpose = .verify)

/-- `TrustedRoot.rekor_keyring` (`models.py:855-863`). -/
def rekorKeyring {χ : Type} (c : Crypto) (now : Time) (tr : TrustedRoot χ) (purpose : Purpose) : Py Keyring :=
  let keys := getTlogKeys now tr.tlogs purpose
  if keys.length = 0 then .error .metadata else Keyring.init c keys

/-- `TrustedRoot.ct_keyring` (`models.py:865-872`). -/
def ctKeyring {χ : Type} (c : Crypto) (now : Time) (tr : TrustedRoot χ) (purpose : Purpose) : Py Keyring :=
  let keys := getTlogKeys now tr.ctlogs purpose
  if keys.isEmpty then .error .metadata else Keyring.init c keys

/-- the loop of `TrustedRoot.get_fulcio_certs` (`models.py:881-883`) -/
def collectFulcioCerts {χ : Type} (now : Time) (acc : List χ) : List (CertificateAuthority χ) → Py (List χ)
  | [] => .ok acc
  | a :: as =>
    match a.init with
    | .error e => .error e
    | .ok ca => collectFulcioCerts now (acc ++ ca.certs now true) as

/-- `TrustedRoot.get_fulcio_certs` (`models.py:874-887`). -/
def getFulcioCerts {χ : Type} (now : Time) (tr : TrustedRoot χ) : Py (List χ) :=
  match collectFulcioCerts now [] tr.certificateAuthorities with
  | .error e => .error e
  | .ok [] => .error .metadata
  | .ok certs => .ok certs

/-- `TrustedRoot.get_timestamp_authorities` (`models.py:889-900`). -/
def getTimestampAuthorities {χ : Type} (tr : TrustedRoot χ) : Py (List (CertificateAuthority χ)) :=
  tr.timestampAuthorities.mapM CertificateAuthority.init

end Sigstore.Trust
