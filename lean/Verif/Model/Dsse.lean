import Verif.Prelude.Crypto
import Verif.Prelude.Decimal
import Verif.Prelude.Json
import Verif.Prelude.Hex
import Verif.Prelude.Utf8
import Verif.Model.Hashing

/-!
# Model of `/repo/sigstore/dsse/__init__.py`
-/

namespace Sigstore.Dsse

/-- `Subject` (`dsse/__init__.py:53-59`); digest algorithm names are texts -/
structure Subject where
  name : Option Str
  digest : Dict Str Str
deriving DecidableEq, Repr

/-- `_Statement` (`dsse/__init__.py:62-72`); the predicate is a JSON object -/
structure StatementInner where
  subjects : List Subject
  predicateType : Str
  predicate : Option (Dict Str Json)
deriving DecidableEq, Repr

/-- `Statement` (`dsse/__init__.py:75-84`): the bytes and what they mean -/
structure Statement where
  contents : Bytes
  inner : StatementInner
deriving DecidableEq, Repr

/-- JSON of statements: `_Statement.model_validate_json` (`none` is a `ValidationError`) and
`model_dump_json(by_alias=True).encode()`.  A parameter here; `Model/Statement.lean` has the schema. -/
structure StatementCodec where
  parse : Bytes → Option StatementInner
  dump : StatementInner → Bytes

/-- `Statement.__init__` on bytes (`dsse/__init__.py:94-102`) -/
def Statement.ofBytes (codec : StatementCodec) (contents : Bytes) : Py Statement :=
  match codec.parse contents with
  | none => .error .error
  | some inner => .ok { contents := contents, inner := inner }

/-- `Statement.__init__` on a `_Statement` (`dsse/__init__.py:94-102`) -/
def Statement.ofInner (codec : StatementCodec) (inner : StatementInner) : Statement :=
  { contents := codec.dump inner, inner := inner }

/-- the loop of `_matches_digest` (`dsse/__init__.py:114-121`) -/
def anySubject (hex : Str) : List Subject → Bool
  | [] => false
  | sub :: rest =>
    match Dict.get? sub.digest "sha256".toList with
    | none => anySubject hex rest
    | some d => if d = hex then true else anySubject hex rest

/-- `Statement._matches_digest` (`dsse/__init__.py:104-121`) -/
def Statement.matchesDigest (s : Statement) (digest : Hashed) : Py Bool :=
  if digest.algorithm ≠ .sha2_256 then .error .verification
  else .ok (anySubject (hexEncode digest.digest) s.inner.subjects)

/-- `StatementBuilder` (`dsse/__init__.py:131-147`) -/
structure StatementBuilder where
  subjects : List Subject
  predicateType : Option Str
  predicate : Option (Dict Str Json)

/-- the members of `Digest` (`dsse/__init__.py:38`) -/
def digestNames : List Str :=
  ["sha256".toList, "sha384".toList, "sha512".toList, "sha3_256".toList, "sha3_384".toList, "sha3_512".toList]

/-- `StatementBuilder.build` (`dsse/__init__.py:170-184`): validation requires at least one subject and a
predicate type.  (The digest names are validated when a `Subject` is constructed.) -/
def StatementBuilder.build (codec : StatementCodec) (b : StatementBuilder) : Py Statement :=
  match b.subjects, b.predicateType with
  | [], _ => .error .error
  | _ :: _, none => .error .error
  | _ :: _, some pt =>
    .ok (Statement.ofInner codec { subjects := b.subjects, predicateType := pt, predicate := b.predicate })

/-- `sigstore_models.intoto.Envelope`; each signature is its `sig` -/
structure EnvelopeMsg where
  payload : Bytes
  payloadType : Str
  signatures : List Bytes
deriving DecidableEq, Repr

/-- `Envelope.__init__` and `_verify` (`dsse/__init__.py:204-222`): the result is the signature of the
envelope, kept as `_signature_bytes` -/
def envelopeInit (e : EnvelopeMsg) : Py Bytes :=
  match e.signatures with
  | [sig] => if sig = [] then .error .invalidEnvelope else .ok sig
  | _ => .error .invalidEnvelope

/-- `_pae` (`dsse/__init__.py:256-266`): `len(type_)` counts code points -/
def pae (type_ : Str) (body : Bytes) : Bytes :=
  utf8 ("DSSEv1 ".toList ++ decimal type_.length ++ " ".toList ++ type_ ++ " ".toList) ++
    (utf8 (decimal body.length) ++ utf8 " ".toList ++ body)

/-- `Envelope._TYPE` (`dsse/__init__.py:202`) -/
def inTotoType : Str := "application/vnd.in-toto+json".toList

/-- `_sign` (`dsse/__init__.py:269-284`); `sign` is `key.sign(_, ECDSA(SHA256))` -/
def dsseSign (sign : Bytes → Bytes) (stmt : Statement) : Py EnvelopeMsg :=
  let e : EnvelopeMsg :=
    { payload := stmt.contents, payloadType := inTotoType, signatures := [sign (pae inTotoType stmt.contents)] }
  match envelopeInit e with
  | .error x => .error x
  | .ok _ => .ok e

/-- `key.verify(signature, data, ec.ECDSA(hashes.SHA256()))` as called on an arbitrary key object: RSA and
Ed25519 keys have a `verify` with another number of arguments (`TypeError`); for all other classes an
`AttributeError` stands for whatever they raise. -/
def ecVerify (c : Crypto) (key : PubKey) (signature data : Bytes) : Py Unit :=
  match key.kind with
  | .ec _ => if c.ecdsa key (c.sha256 data) signature then .ok () else .error .invalidSignature
  | .rsa _ => .error .typeError
  | .ed25519 => .error .typeError
  | .other _ => .error .attributeError

/-- `_verify` (`dsse/__init__.py:287-308`) -/
def dsseVerify (c : Crypto) (key : PubKey) (e : EnvelopeMsg) : Py Bytes :=
  match e.signatures with
  | [sig] =>
    match ecVerify c key sig (pae e.payloadType e.payload) with
    | .ok () => .ok e.payload
    | .error .invalidSignature => .error .verification
    | .error x => .error x
  | _ => .error .verification

end Sigstore.Dsse
