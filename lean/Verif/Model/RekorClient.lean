import Verif.Model.LogEntry

/-!
# Model of the Rekor v1 client (`/repo/sigstore/_internal/rekor/client.py:109-274`),
`TransparencyLogEntry._from_v1_response` (`/repo/sigstore/models.py:115-168`) and the thread-local sessions
-/

namespace Sigstore.RekorClient

open Sigstore.LogEntry

/-! ## Fetching one entry -/

/-- the HTTP request `RekorEntries.get` makes -/
inductive EntryQuery where
  /-- `GET {url}/{uuid}` -/
  | byUuid (uuid : Str)
  /-- `GET {url}?logIndex={index}` -/
  | byIndex (index : Int)
deriving DecidableEq, Repr

/-- `bool(uuid)` -/
def uuidTruthy (uuid : Option Str) : Bool := match uuid with | none => false | some s => s ≠ []

/-- `bool(log_index)` -/
def indexTruthy (i : Option Int) : Bool := match i with | none => false | some n => n ≠ 0

/-- `RekorEntries.get` (`client.py:114-136`), up to the HTTP request.  With `uuid=None` and `log_index=None` the first
test fails already, so the index is present in the last case. -/
def entryQuery (uuid : Option Str) (logIndex : Option Int) : Py EntryQuery :=
  if ! (uuidTruthy uuid ^^ indexTruthy logIndex) then .error .valueError
  else
    match uuid with
    | some u => .ok (.byUuid u)
    | none =>
      match logIndex with
      | some i => .ok (.byIndex i)
      | none => .error .assertionError

/-! ## Responses -/

/-- an entry of a v1 response: base64 and hex texts as received.  Simplification: no member is missing and sizes and
indices in the proof are not negative (`Model/Http.lean` reads arbitrary JSON). -/
structure V1Entry where
  body : Str
  logIndex : Int
  logId : Str
  integratedTime : Int
  signedEntryTimestamp : Str
  proofLogIndex : Nat
  rootHash : Str
  treeSize : Nat
  hashes : List Str
  checkpoint : Str
deriving DecidableEq, Repr

/-- `[bytes.fromhex(h) for h in hashes]` -/
def hexAll : List Str → Option (List Bytes)
  | [] => some []
  | h :: hs =>
    match hexDecode h, hexAll hs with
    | some b, some bs => some (b :: bs)
    | _, _ => none

/-- `TransparencyLogEntry._from_v1_response` (`models.py:115-168`).  `parseEntry` is
`TypeAdapter(ProposedEntry).validate_json`: `none` if it raises, `some none` for kinds other than hashedrekord and dsse,
else kind and version. -/
def fromV1Response (parseEntry : Bytes → Option (Option (Str × Str))) (response : List (Str × V1Entry)) : Py LogEntry :=
  match response with
  | [(_, e)] =>
    match b64Decode e.body with
    | .error x => .error x
    | .ok body =>
      match parseEntry body with
      | none => .error .pydantic
      | some none => .error .invalidBundle
      | some (some (kind, version)) =>
        match hexDecode e.logId, b64Decode e.signedEntryTimestamp, hexDecode e.rootHash, hexAll e.hashes with
        | some logId, .ok set, some root, some hashes =>
          let entry : LogEntry :=
            { logIndex := e.logIndex, logId := logId, kind := kind, version := version,
              integratedTime := some e.integratedTime, promise := some set, body := body,
              proof := some { logIndex := e.proofLogIndex, rootHash := root, treeSize := e.treeSize, hashes := hashes,
                              checkpoint := some e.checkpoint } }
          match entry.validate with
          | .error x => .error x
          | .ok () => .ok entry
        | _, _, _, _ => .error .valueError
  | _ => .error .valueError

/-- what `RekorEntriesRetrieve.post` gets: an error status, or a list of results, each of which becomes an entry or an
exception in `_from_v1_response` -/
inductive RetrieveReply where
  | status (code : Nat)
  | results (entries : List (Py LogEntry))

/-- the loop over the results (`client.py:194-214`) -/
def oldest : List (Py LogEntry) → Option LogEntry → Py (Option LogEntry)
  | [], best => .ok best
  | r :: rest, best =>
    match r with
    | .error e => .error e
    | .ok entry =>
      match entry.integratedTime with
      | none => .error .valueError
      | some t =>
        match best with
        | none => oldest rest (some entry)
        | some b => if t < b.integratedTime.getD 0 then oldest rest (some entry) else oldest rest best

/-- `RekorEntriesRetrieve.post` (`client.py:171-214`).  A `requests.Response` with an error status is falsy, so the
comparison with 404 is never reached. -/
def retrieve : RetrieveReply → Py (Option LogEntry)
  | .status code =>
    let truthy : Bool := code < 400
    if truthy && code = 404 then .ok none else .error .rekorClient
  | .results entries => oldest entries none

/-! ## Sessions -/

/-- where a thread is in the `_session` property (`client.py:243-258`, `client_v2.py:61-76`,
`/repo/sigstore/_internal/timestamp.py:74-88`) -/
inductive SessionPc where
  /-- about to test `hasattr(self._thread_local, "session")` -/
  | test
  /-- about to create the session -/
  | create
  /-- about to store the session in the thread-local object -/
  | store (session : Nat)
  /-- about to return the stored session and use it -/
  | use
deriving DecidableEq, Repr

/-- threads with their thread-local storage; sessions are numbered as they are created -/
structure Sessions where
  stored : Nat → Option Nat
  pc : Nat → SessionPc
  /-- by which thread each session was created -/
  creators : List Nat
  /-- thread and session of every use so far -/
  uses : List (Nat × Nat)

/-- one step of thread `t`; a thread that has used its session starts over -/
def sessionStep (s : Sessions) (t : Nat) : Sessions :=
  let goto (s : Sessions) (p : SessionPc) : Sessions := { s with pc := fun u => if u = t then p else s.pc u }
  match s.pc t with
  | .test => match s.stored t with
    | none => goto s .create
    | some _ => goto s .use
  | .create => goto { s with creators := s.creators ++ [t] } (.store s.creators.length)
  | .store x => goto { s with stored := fun u => if u = t then some x else s.stored u } .use
  | .use => match s.stored t with
    | none => s
    | some x => goto { s with uses := s.uses ++ [(t, x)] } .test

/-- a new client -/
def Sessions.init : Sessions := ⟨fun _ => none, fun _ => .test, [], []⟩

/-- a schedule of threads -/
def runSessions (schedule : List Nat) : Sessions := schedule.foldl sessionStep .init

end Sigstore.RekorClient
