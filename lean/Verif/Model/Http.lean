import Verif.Model.Oidc
import Verif.Model.OAuth
import Verif.Model.RekorClient
import Verif.Model.Signer

/-!
# Model of the HTTP clients, from the response to the value returned

`/repo/sigstore/_internal/rekor/client.py`, `client_v2.py`, `__init__.py`, `/repo/sigstore/_internal/fulcio/client.py`,
`/repo/sigstore/_internal/timestamp.py`, `/repo/sigstore/oidc.py:231-366`.  JSON documents are arbitrary: members may be
missing or of any type, and Python's operations on them raise accordingly.
-/

namespace Sigstore.Http

open Sigstore.Oidc Sigstore.Trust Sigstore.LogEntry Sigstore.RekorClient

/-! ## Python operations on decoded JSON -/

/-- `j[k]` for a string `k`: subscripting anything but a dictionary with a string is a `TypeError` -/
def item (j : Json) (k : Str) : Py Json :=
  match j with
  | .obj fields =>
    match Dict.get? fields k with
    | none => .error .keyError
    | some v => .ok v
  | _ => .error .typeError

/-- `len(j)` -/
def len : Json → Py Nat
  | .obj fields => .ok fields.length
  | .arr items => .ok items.length
  | .str s => .ok s.length
  | _ => .error .typeError

/-- `j[0]`: the keys of a dictionary from JSON are strings, so `0` is not among them -/
def first : Json → Py Json
  | .obj _ => .error .keyError
  | .arr [] => .error .indexError
  | .arr (x :: _) => .ok x
  | .str [] => .error .indexError
  | .str (c :: _) => .ok (.str [c])
  | _ => .error .typeError

/-- `for x in j` -/
def iter : Json → Py (List Json)
  | .obj fields => .ok (fields.map fun f => .str f.1)
  | .arr items => .ok items
  | .str s => .ok (s.map fun c => .str [c])
  | _ => .error .typeError

/-- `j[1:]`.  Simplification: for a dictionary this is a `TypeError` (Python 3.12: a `KeyError`); `client.py:131` is not
reached with one. -/
def rest : Json → Py (List Json)
  | .arr items => .ok items.tail
  | .str s => .ok (s.tail.map fun c => .str [c])
  | _ => .error .typeError

/-- `j.encode()` -/
def encode : Json → Py Bytes
  | .str s => .ok (utf8 s)
  | _ => .error .attributeError

/-- `j.items()` -/
def items : Json → Py (List (Str × Json))
  | .obj fields => .ok fields
  | _ => .error .attributeError

/-- `j.get(k)` -/
def getOr (j : Json) (k : Str) : Py Json :=
  match j with
  | .obj fields => .ok (getOrNull fields k)
  | _ => .error .attributeError

/-- `[f(x) for x in xs]` -/
def forEach {α β : Type} (f : α → Py β) : List α → Py (List β)
  | [] => .ok []
  | x :: xs =>
    match f x with
    | .error e => .error e
    | .ok y =>
      match forEach f xs with
      | .error e => .error e
      | .ok ys => .ok (y :: ys)

/-! ## Responses -/

/-- a `requests.Response`: the status, the body, its text, and what it is as JSON if it is JSON -/
structure Response where
  status : Nat
  content : Bytes
  text : Str
  json? : Option Json

/-- `Response.raise_for_status` of `requests`: client and server errors -/
def Response.raiseForStatus (r : Response) : Py Unit :=
  if 400 ≤ r.status ∧ r.status < 600 then .error .requestsHttp else .ok ()

/-- `bool(response)`, that is `Response.ok` of `requests`: whether `raise_for_status` does not raise -/
def Response.truthy (r : Response) : Bool :=
  match r.raiseForStatus with
  | .error _ => false
  | .ok _ => true

/-- `Response.json()` -/
def Response.json (r : Response) : Py Json :=
  match r.json? with
  | none => .error .requestsJson
  | some j => .ok j

/-- `try: resp.raise_for_status() except requests.HTTPError: <handler>`, then the rest -/
def Response.checked {α : Type} (r : Response) (handler : Py α) (k : Py α) : Py α :=
  match r.raiseForStatus with
  | .error e => if e = .requestsHttp then handler else .error e
  | .ok () => k

/-! ## Rekor -/

/-- `RekorLogInfo` (`client.py:49-73`) -/
structure LogInfo where
  rootHash : Json
  treeSize : Json
  signedTreeHead : Json
  treeId : Json
  raw : Json

/-- `RekorLogInfo.from_response` (`client.py:61-73`) -/
def LogInfo.fromResponse (j : Json) : Py LogInfo := do
  let rootHash ← item j "rootHash".toList
  let treeSize ← item j "treeSize".toList
  let signedTreeHead ← item j "signedTreeHead".toList
  let treeId ← item j "treeID".toList
  .ok ⟨rootHash, treeSize, signedTreeHead, treeId, j⟩

/-- `RekorLog.get` (`client.py:89-98`), given what `session.get` returns or raises -/
def rekorLogGet (exchange : Py Response) : Py LogInfo := do
  let r ← exchange
  r.checked (.error .rekorClient) do
    let j ← r.json
    LogInfo.fromResponse j

/-- What reading an entry takes from outside: the body parser (see `fromV1Response`), `str(x)`, and the conversions of
the protobuf models from text to integers (`ProtoU64` and the like; `none` is a `ValidationError`). -/
structure EntryLibs where
  parseEntry : Bytes → Option (Option (Str × Str))
  str : Json → Str
  protoInt : Str → Option Int
  protoNat : Str → Option Nat

/-- a parse that raises pydantic's `ValidationError` -/
def validated {α : Type} : Option α → Py α
  | none => .error .pydantic
  | some a => .ok a

/-- `base64.b64decode(x)`: only text and bytes -/
def b64decodeJson : Json → Py Bytes
  | .str s => b64Decode s
  | _ => .error .typeError

/-- `bytes.fromhex(x)`: only text -/
def fromhexJson : Json → Py Bytes
  | .str s =>
    match hexDecode s with
    | none => .error .valueError
    | some b => .ok b
  | _ => .error .typeError

/-- a base64 member of a model: text, else a `ValidationError` -/
def b64Member : Json → Py Bytes
  | .str s =>
    match b64Decode s with
    | .error _ => .error .pydantic
    | .ok b => .ok b
  | _ => .error .pydantic

/-- a text member of a model -/
def strMember : Json → Py Str
  | .str s => .ok s
  | _ => .error .pydantic

/-- `TransparencyLogEntry._from_v1_response` (`/repo/sigstore/models.py:115-168`) on arbitrary JSON.  Simplification: the
integers are converted in the order of the arguments. -/
def fromV1Json (libs : EntryLibs) (j : Json) : Py LogEntry := do
  let entries ← items j
  match entries with
  | [(_, entry)] => do
    let bodyText ← item entry "body".toList
    let body ← b64decodeJson bodyText
    let kv ← validated (libs.parseEntry body)
    match kv with
    | none => .error .invalidBundle
    | some (kind, version) => do
      let verification ← item entry "verification".toList
      let proof ← item verification "inclusionProof".toList
      let logIndexJson ← item entry "logIndex".toList
      let logIdJson ← item entry "logID".toList
      let logId ← fromhexJson logIdJson
      let timeJson ← item entry "integratedTime".toList
      let setJson ← item verification "signedEntryTimestamp".toList
      let set ← b64Member setJson
      let proofIndexJson ← item proof "logIndex".toList
      let rootJson ← item proof "rootHash".toList
      let root ← fromhexJson rootJson
      let sizeJson ← item proof "treeSize".toList
      let hashesJson ← item proof "hashes".toList
      let hashList ← iter hashesJson
      let hashes ← forEach fromhexJson hashList
      let checkpointJson ← item proof "checkpoint".toList
      let checkpoint ← strMember checkpointJson
      let proofIndex ← validated (libs.protoNat (libs.str proofIndexJson))
      let size ← validated (libs.protoNat (libs.str sizeJson))
      let logIndex ← validated (libs.protoInt (libs.str logIndexJson))
      let time ← validated (libs.protoInt (libs.str timeJson))
      let e : LogEntry :=
        { logIndex := logIndex, logId := logId, kind := kind, version := version, integratedTime := some time,
          promise := some set, body := body,
          proof := some { logIndex := proofIndex, rootHash := root, treeSize := size, hashes := hashes,
                          checkpoint := some checkpoint } }
      let _ ← e.validate
      .ok e
  | _ => .error .valueError

/-- what follows the request in `RekorEntries.get` and `RekorEntries.post` (`client.py:132-136, 149-156`) -/
def readEntry (libs : EntryLibs) (exchange : Py Response) : Py LogEntry := do
  let r ← exchange
  r.checked (.error .rekorClient) do
    let j ← r.json
    fromV1Json libs j

/-- `RekorEntries.get` (`client.py:114-136`) -/
def rekorEntriesGet (libs : EntryLibs) (send : EntryQuery → Py Response) (uuid : Option Str) (logIndex : Option Int) :
    Py LogEntry := do
  let q ← entryQuery uuid logIndex
  readEntry libs (send q)

/-- `RekorEntries.post` (`client.py:138-156`), which `RekorClient.create_entry` (`client.py:268-274`) calls -/
def rekorEntriesPost (libs : EntryLibs) (exchange : Py Response) : Py LogEntry := readEntry libs exchange

/-- `RekorEntriesRetrieve.post` (`client.py:171-214`) on arbitrary responses.  The entries are read one by one, but an entry
without a time does not exist here (`fromV1Json` sets it), so reading all of them first raises the same. -/
def rekorRetrieve (libs : EntryLibs) (exchange : Py Response) : Py (Option LogEntry) := do
  let r ← exchange
  r.checked (if r.truthy && r.status = 404 then .ok none else .error .rekorClient) do
    let j ← r.json
    let results ← iter j
    oldest (results.map (fromV1Json libs)) none

/-- `RekorV2Client.create_entry` (`/repo/sigstore/_internal/rekor/client_v2.py:78-103`); `fromDict` is the protobuf model's
parser, `none` if it raises `ValidationError` -/
def rekorV2CreateEntry (fromDict : Json → Option LogEntry) (exchange : Py Response) : Py LogEntry := do
  let r ← exchange
  r.checked (.error .rekorClient) do
    let j ← r.json
    let e ← validated (fromDict j)
    let _ ← e.validate
    .ok e

/-! ## Fulcio -/

/-- whether `needle` occurs in `text` -/
def contains (needle : Str) : Str → Bool
  | [] => needle = []
  | c :: cs => needle.isPrefixOf (c :: cs) || contains needle cs

/-- the message of the `FulcioClientError` for an error status (`/repo/sigstore/_internal/fulcio/client.py:110-116`): an
exception if working it out raises, else the message, if there is one.  `loads` is `json.loads`, `none` for
`JSONDecodeError`. -/
def fulcioMessage (loads : Str → Option Json) (r : Response) : Py (Option Json) :=
  if r.truthy then
    match loads r.text with
    | none => .error .valueError
    | some text =>
      if contains "message".toList r.text then
        match item text "message".toList with
        | .error e => .error e
        | .ok m => .ok (some m)
      else .ok none
  else .ok none

/-- `except KeyError: raise FulcioClientError(...)` -/
def keyErrorToFulcio {α : Type} : Py α → Py α
  | .error e => .error (if e = .keyError then .fulcioClient else e)
  | .ok a => .ok a

/-- the certificates of a response (`client.py:118-123`) -/
def fulcioCertificates (r : Response) : Py Json :=
  keyErrorToFulcio do
    let j ← r.json
    let s ← item j "signedCertificateEmbeddedSct".toList
    let c ← item s "chain".toList
    item c "certificates".toList

/-- `load_pem_x509_certificate(c.encode())`; `none` is a `ValueError` -/
def loadCertJson (loadPem : Bytes → Option Cert) (c : Json) : Py Cert := do
  let b ← encode c
  match loadPem b with
  | none => .error .valueError
  | some c => .ok c

/-- `FulcioSigningCert.post` (`client.py:93-134`), given what `session.post` returns or raises -/
def fulcioSigningCert (loads : Str → Option Json) (loadPem : Bytes → Option Cert) (exchange : Py Response) :
    Py (Cert × List Cert) := do
  let r ← exchange
  r.checked
    (match fulcioMessage loads r with
      | .error e => .error e
      | .ok _ => .error .fulcioClient)
    do
      let certificates ← fulcioCertificates r
      let n ← len certificates
      if n < 2 then .error .fulcioClient
      else do
        let c ← first certificates
        let cert ← loadCertJson loadPem c
        let others ← rest certificates
        let chain ← forEach (loadCertJson loadPem) others
        .ok (cert, chain)

/-- one chain of a trust bundle (`client.py:153-157`) -/
def trustChain (loadPem : Bytes → Option Cert) (j : Json) : Py (List Cert) := do
  let certs ← item j "certificates".toList
  let l ← iter certs
  forEach (loadCertJson loadPem) l

/-- `FulcioTrustBundle.get` (`client.py:142-158`) -/
def fulcioTrustBundle (loadPem : Bytes → Option Cert) (exchange : Py Response) : Py (List (List Cert)) := do
  let r ← exchange
  r.checked (.error .fulcioClient) do
    let j ← r.json
    let chains ← item j "chains".toList
    let l ← iter chains
    forEach (trustChain loadPem) l

/-! ## Timestamp authorities -/

/-- `TimestampAuthorityClient.request_timestamp` (`/repo/sigstore/_internal/timestamp.py:90-133`): building and decoding fail
with `ValueError` (`none`) -/
def tsaRequest (build : Bytes → Option Bytes) (send : Bytes → Py Response) (decode : Bytes → Option Tsr)
    (signature : Bytes) : Py Tsr :=
  match build signature with
  | none => .error .timestamp
  | some req =>
    let sent : Py Response := do
      let r ← send req
      let _ ← r.raiseForStatus
      .ok r
    match sent with
    | .error e => if e.isRequestException then .error .timestamp else .error e
    | .ok r =>
      match decode r.content with
      | none => .error .timestamp
      | some t => .ok t

/-! ## OIDC issuers -/

/-- `_OpenIDConfiguration` (`/repo/sigstore/oidc.py:48-57`) -/
structure OidcConfig where
  authorizationEndpoint : Str
  tokenEndpoint : Str
deriving DecidableEq, Repr

/-- `_OpenIDConfiguration.model_validate`: a dictionary with two members that are strings -/
def OidcConfig.validate (j : Json) : Py OidcConfig :=
  match j with
  | .obj fields =>
    match Dict.get? fields "authorization_endpoint".toList, Dict.get? fields "token_endpoint".toList with
    | some (.str a), some (.str t) => .ok ⟨a, t⟩
    | _, _ => .error .pydantic
  | _ => .error .pydantic

/-- `except (requests.ConnectionError, requests.Timeout): raise NetworkError` -/
def networkError {α : Type} : Py α → Py α
  | .error e => .error (if e = .requestsConnection ∨ e = .requestsTimeout then .network else e)
  | .ok a => .ok a

/-- `Issuer.__init__` (`oidc.py:239-270`), given what `session.get` returns or raises -/
def issuerInit (exchange : Py Response) : Py OidcConfig := do
  let r ← networkError exchange
  r.checked (.error .issuer)
    (match (do let j ← r.json; OidcConfig.validate j : Py OidcConfig) with
      | .error e => .error (if e.isValueError then .issuer else e)
      | .ok c => .ok c)

/-- the end of `Issuer.identity_token` (`oidc.py:344-366`), given what `session.post` returns or raises.  PyJWT rejects a
token that is not text (`IdentityError`). -/
def tokenExchange (libs : Libs) (now : ℚ) (clientId : Str) (exchange : Py Response) : Py IdentityToken := do
  let r ← networkError exchange
  r.checked (.error .identity) do
    let j ← r.json
    let err ← getOr j "error".toList
    match err with
    | .null => do
      let token ← item j "access_token".toList
      match token with
      | .str raw => IdentityToken.init libs now raw clientId
      | _ => .error .identity
    | _ => .error .identity

/-- `Issuer.identity_token` (`oidc.py:272-366`) from a state `m` of the redirect flow: `none` while it waits; `send` makes the
token request -/
def identityToken (libs : Libs) (now : ℚ) (clientId : Str) (s : OAuth.Session) (input : Str)
    (send : OAuth.TokenRequest → Py Response) (m : OAuth.Machine) : Option (Py IdentityToken) :=
  match OAuth.tokenRequest s input m with
  | none => none
  | some (.error e) => some (.error e)
  | some (.ok t) => some (tokenExchange libs now clientId (send t))

end Sigstore.Http
