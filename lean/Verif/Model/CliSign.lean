import Verif.Model.CliVerify
import Verif.Model.Signer
import Verif.Model.Oidc
import Verif.Model.Slsa

/-!
# Model of `sigstore sign` and `sigstore attest` (`/repo/sigstore/_cli.py:74-78,697-944,1279-1304`)

The file system is a map from canonical paths to nodes; `resolve` follows links.  Simplifications: nobody else changes the
file system or its links meanwhile, and permissions and missing parents are answers (`canRead`, `canWrite`, `canMkdir`)
that do not change; so are failing writes (`canPut`), such as on a full disk.  Every output is written byte by byte, so that
the threads interleave at least as finely as they do with any buffering.  What is printed is left out.
-/

namespace Sigstore.Cli

open Sigstore.Trust Sigstore.Config Sigstore.Dsse Sigstore.Signing

/-! ## Files -/

/-- a node of the file system -/
inductive Node where
  | file (content : Bytes)
  | dir
deriving DecidableEq, Repr

/-- a state of the file system, by canonical path -/
abbrev Disk := Path → Option Node

/-- what stays fixed about the file system: where a path leads, and the permissions -/
structure DiskEnv where
  resolve : Path → Path
  canRead : Path → Bool
  canWrite : Path → Bool
  canMkdir : Path → Bool
  /-- writing to an open file goes on after so many bytes; at the end of the data it is closing the file that succeeds -/
  canPut : Path → Nat → Bool

/-- `p.exists()` -/
def DiskEnv.exists_ (e : DiskEnv) (d : Disk) (p : Path) : Bool := (d (e.resolve p)).isSome

/-- `p.is_file()` -/
def DiskEnv.isFile (e : DiskEnv) (d : Disk) (p : Path) : Bool :=
  match d (e.resolve p) with
  | some (.file _) => true
  | _ => false

/-- `p.is_dir()` -/
def DiskEnv.isDir (e : DiskEnv) (d : Disk) (p : Path) : Bool := d (e.resolve p) == some .dir

/-- the content of a file opened for reading -/
def DiskEnv.read (e : DiskEnv) (d : Disk) (p : Path) : Py Bytes :=
  match d (e.resolve p) with
  | some (.file c) => if e.canRead p then .ok c else .error .osError
  | _ => .error .osError

/-- the part of the file system that is read before signing -/
def DiskEnv.fs (e : DiskEnv) (d : Disk) : Fs := ⟨e.isFile d, e.read d⟩

/-- a path and everything above it -/
def Path.ancestors (p : Path) : List Path := p.parts.inits.map fun l => ⟨p.absolute, l⟩

/-- make a directory unless something is there -/
def DiskEnv.mkdirOne (e : DiskEnv) (d : Disk) (p : Path) : Disk :=
  match d (e.resolve p) with
  | none => Function.update d (e.resolve p) (some .dir)
  | some _ => d

/-- `p.mkdir(parents=True, exist_ok=True)`.  Simplification: a failing call makes nothing. -/
def DiskEnv.mkdir (e : DiskEnv) (d : Disk) (p : Path) : Py Disk :=
  match d (e.resolve p) with
  | some .dir => .ok d
  | some (.file _) => .error .osError
  | none => if e.canMkdir p then .ok ((Path.ancestors p).foldl e.mkdirOne d) else .error .osError

/-- `p.open(mode="w")`: the file is created or truncated -/
def DiskEnv.openW (e : DiskEnv) (d : Disk) (p : Path) : Py Disk :=
  match d (e.resolve p) with
  | some .dir => .error .osError
  | _ => if e.canWrite p then .ok (Function.update d (e.resolve p) (some (.file []))) else .error .osError

/-- a byte written at an offset; a gap reads as zeros -/
def putByte (content : Bytes) (n : Nat) (b : UInt8) : Bytes :=
  (content ++ List.replicate (n - content.length) 0).take n ++ b :: content.drop (n + 1)

/-- writing one byte through a handle at its own offset -/
def DiskEnv.writeByte (e : DiskEnv) (d : Disk) (p : Path) (n : Nat) (b : UInt8) : Disk :=
  match d (e.resolve p) with
  | some (.file c) => Function.update d (e.resolve p) (some (.file (putByte c n b)))
  | _ => d

/-! ## Options and the map of outputs -/

/-- `SigningOutputs` (`_cli.py:74-78`) -/
structure SigningOutputs where
  signature : Option Path
  certificate : Option Path
  bundle : Option Path
deriving DecidableEq, Repr

/-- the options of `sigstore sign` that concern files (`_cli.py:363-447`) -/
structure SignArgs where
  files : List Path
  signature : Option Path
  certificate : Option Path
  bundle : Option Path
  outputDirectory : Option Path
  noDefaultFiles : Bool
  overwrite : Bool
deriving DecidableEq, Repr

/-- the four consistency checks (`_cli.py:868-899`) -/
def signConflict (args : SignArgs) : Bool :=
  let hasSig := args.signature.isSome
  let hasCrt := args.certificate.isSome
  let hasBundle := args.bundle.isSome
  (args.noDefaultFiles && hasBundle) ||
  ((hasSig || hasCrt || hasBundle) && decide (args.files.length > 1)) ||
  (args.outputDirectory.isSome && (hasSig || hasCrt || hasBundle)) ||
  (hasSig ^^ hasCrt)

/-- does an optional output exist? -/
def DiskEnv.extant (e : DiskEnv) (d : Disk) : Option Path → Bool
  | none => false
  | some p => e.exists_ d p

/-- the path of the bundle (`_cli.py:908-922`) -/
def signBundlePath (args : SignArgs) (file outputDir : Path) : Option Path :=
  match args.bundle with
  | some b => some b
  | none => if args.noDefaultFiles then none else some (outputDir.join (file.name ++ ".sigstore.json".toList))

/-- the body of the loop over the files (`_cli.py:901-942`) -/
def signOutputsOne (e : DiskEnv) (args : SignArgs) (file : Path) (d : Disk) : Py SigningOutputs × Disk :=
  if !e.isFile d file then (.error (.systemExit 2), d)
  else
    let outputDir := args.outputDirectory.getD file.parent
    if e.exists_ d outputDir && !e.isDir d outputDir then (.error (.systemExit 2), d)
    else
      match e.mkdir d outputDir with
      | .error x => (.error x, d)
      | .ok d =>
        let bundle := signBundlePath args file outputDir
        if !args.overwrite && (e.extant d args.signature || e.extant d args.certificate || e.extant d bundle) then
          (.error (.systemExit 2), d)
        else (.ok ⟨args.signature, args.certificate, bundle⟩, d)

/-- the loop; `output_map` is a dictionary, so a file that is named twice is signed once -/
def signOutputsLoop (e : DiskEnv) (args : SignArgs) (map : Dict Path SigningOutputs) :
    List Path → Disk → Py (Dict Path SigningOutputs) × Disk
  | [], d => (.ok map, d)
  | file :: rest, d =>
    match signOutputsOne e args file d with
    | (.error x, d) => (.error x, d)
    | (.ok o, d) => signOutputsLoop e args (map.set file o) rest d

/-- `_sign` up to `_sign_common` (`_cli.py:867-942`) -/
def signOutputs (e : DiskEnv) (args : SignArgs) (d : Disk) : Py (Dict Path SigningOutputs) × Disk :=
  if signConflict args then (.error (.systemExit 2), d) else signOutputsLoop e args [] args.files d

/-- the options of `sigstore attest` that concern files (`_cli.py:296-360`) -/
structure AttestArgs where
  files : List Path
  predicate : Path
  predicateType : Str
  bundle : Option Path
  overwrite : Bool
deriving DecidableEq, Repr

/-- `PredicateType` (`dsse/_predicate.py`) -/
def slsaV02 : Str := "https://slsa.dev/provenance/v0.2".toList

/-- `PredicateType` (`dsse/_predicate.py`) -/
def slsaV10 : Str := "https://slsa.dev/provenance/v1".toList

/-- `model_validate` of a document, which is then used itself (`_cli.py:825-828`).  The models accept objects only. -/
def checkPredicate (accepts : Json → Bool) : Json → Py (Dict Str Json)
  | .obj members => if accepts (.obj members) then .ok members else .error (.systemExit 2)
  | _ => .error (.systemExit 2)

/-- reading the predicate (`_cli.py:812-838`).  `loads` is `json.loads`; its `JSONDecodeError` (here `none`) is caught, but not
the `UnicodeDecodeError` of reading the text. -/
def readPredicate (e : DiskEnv) (loads : Str → Option Json) (args : AttestArgs) (d : Disk) : Py (Dict Str Json) :=
  if !e.isFile d args.predicate then .error (.systemExit 2)
  else
    match readText (e.fs d) args.predicate with
    | .error x => .error x
    | .ok text =>
      match loads text with
      | none => .error (.systemExit 2)
      | some j =>
        if args.predicateType = slsaV02 then checkPredicate Slsa.predicateV0_2 j
        else if args.predicateType = slsaV10 then checkPredicate Slsa.predicateV1_0 j
        else .error (.systemExit 2)

/-- the loop over the files (`_cli.py:842-858`) -/
def attestOutputsLoop (e : DiskEnv) (args : AttestArgs) (d : Disk) (map : Dict Path SigningOutputs) :
    List Path → Py (Dict Path SigningOutputs)
  | [] => .ok map
  | file :: rest =>
    if !e.isFile d file then .error (.systemExit 2)
    else
      let bundle := args.bundle.getD (sibling file ".sigstore.json".toList)
      if e.exists_ d bundle && !args.overwrite then .error (.systemExit 2)
      else attestOutputsLoop e args d (map.set file ⟨none, none, some bundle⟩) rest

/-! ## Threads -/

/-- one output to write -/
inductive Output where
  | signature (p : Path)
  | certificate (p : Path)
  | bundle (p : Path)
deriving DecidableEq, Repr

/-- where it goes -/
def Output.path : Output → Path
  | .signature p => p
  | .certificate p => p
  | .bundle p => p

/-- the outputs in the order in which they are written (`_cli.py:733-745`) -/
def SigningOutputs.list (o : SigningOutputs) : List Output :=
  (o.signature.map Output.signature).toList ++ (o.certificate.map Output.certificate).toList ++
    (o.bundle.map Output.bundle).toList

/-- a call of `_sign_file_threaded`: its file and outputs, and what the world answers to its signing call and to the
second `_signing_cert()` -/
structure Job where
  file : Path
  outputs : SigningOutputs
  answers : Answers
  certAnswers : Answers

/-- what the threads share and do not change -/
structure JobEnv where
  env : Env
  ctx : Context
  kp : KeyPairs
  signer : Signer
  codec : StatementCodec
  disk : DiskEnv
  /-- `Bundle.to_json` -/
  toJson : Bundle → Str
  /-- predicate type and predicate -/
  predicate : Option (Str × Dict Str Json)

/-- where a thread is in `_sign_file_threaded` (`_cli.py:697-745`).  Simplification: the digest of the input is computed
in one step. -/
inductive JobPc where
  | start
  | hashed (h : Hashed)
  /-- signed; the outputs that are still to be written -/
  | emit (b : Bundle) (todo : List Output)
  /-- `n` bytes of `data` have been written -/
  | writing (b : Bundle) (p : Path) (data : Bytes) (n : Nat) (todo : List Output)
  | done
  | failed (e : Exc)

/-- the state of all threads -/
structure JobsState where
  disk : Disk
  world : Signing.World
  pcs : Nat → JobPc

/-- the signing call (`_cli.py:710-727`) -/
def callFor (je : JobEnv) (file : Path) (h : Hashed) : Py Call :=
  match je.predicate with
  | none => .ok (.artifact (.hashed h))
  | some (pt, pred) =>
    match StatementBuilder.build je.codec
      ⟨[⟨some file.name, [("sha256".toList, hexEncode h.digest)]⟩], some pt, some pred⟩ with
    | .error e => .error e
    | .ok stmt => .ok (.dsse stmt)

/-- what is printed to an output (`_cli.py:729-745`), with the newline of `print` -/
def outputData (je : JobEnv) (a : Answers) (b : Bundle) (w : Signing.World) : Output → Py Bytes × Signing.World
  | .signature _ =>
    match b.signature with
    | .error e => (.error e, w)
    | .ok s => (.ok (utf8 (b64Encode s ++ ['\n'])), w)
  | .certificate _ =>
    match je.signer.signingCert je.env je.ctx je.kp a w with
    | (.error e, w) => (.error e, w)
    | (.ok cert, w) => (.ok (utf8 (pemText cert.der ++ ['\n'])), w)
  | .bundle _ => (.ok (utf8 (je.toJson b ++ ['\n'])), w)

/-- the thread goes on to `pc` -/
def JobsState.goto (st : JobsState) (i : Nat) (pc : JobPc) : JobsState :=
  { st with pcs := Function.update st.pcs i pc }

/-- one step of thread `i` -/
def jobStep (je : JobEnv) (jobs : List Job) (st : JobsState) (i : Nat) : JobsState :=
  match jobs[i]? with
  | none => st
  | some job =>
    match st.pcs i with
    | .start =>
      match je.disk.read st.disk job.file with
      | .error e => st.goto i (.failed e)
      | .ok content => st.goto i (.hashed (sha256Digest je.env.crypto (.bytes content)))
    | .hashed h =>
      match callFor je job.file h with
      | .error e => st.goto i (.failed e)
      | .ok call =>
        match je.signer.sign je.env je.ctx je.kp job.answers st.world call with
        | (.error e, w) => { st with world := w }.goto i (.failed e)
        | (.ok b, w) => { st with world := w }.goto i (.emit b job.outputs.list)
    | .emit _ [] => st.goto i .done
    | .emit b (o :: todo) =>
      match outputData je job.certAnswers b st.world o with
      | (.error e, w) => { st with world := w }.goto i (.failed e)
      | (.ok data, w) =>
        match je.disk.openW st.disk o.path with
        | .error e => { st with world := w }.goto i (.failed e)
        | .ok d => { st with world := w, disk := d }.goto i (.writing b o.path data 0 todo)
    | .writing b p data n todo =>
      if je.disk.canPut p n then
        match data[n]? with
        | none => st.goto i (.emit b todo)
        | some byte => { st with disk := je.disk.writeByte st.disk p n byte }.goto i (.writing b p data (n + 1) todo)
      else st.goto i (.failed .osError)
    | .done => st
    | .failed _ => st

/-- a schedule of the threads -/
def runJobs (je : JobEnv) (jobs : List Job) (st : JobsState) (schedule : List Nat) : JobsState :=
  schedule.foldl (jobStep je jobs) st

/-- the thread has ended -/
def JobPc.ended : JobPc → Bool
  | .done => true
  | .failed _ => true
  | _ => false

/-- the exception of a failed thread -/
def JobPc.error? : JobPc → Option Exc
  | .failed e => some e
  | _ => none

/-- the end of the `with` block (`_cli.py:782-801`): `none` while some thread runs; otherwise the exception of the first
failed thread in the order of completion.  All threads end even if one fails, as leaving the block waits for them. -/
def jobsResult (jobs : List Job) (order : List Nat) (st : JobsState) : Option (Py Unit) :=
  if (List.range jobs.length).all fun i => (st.pcs i).ended then
    match (order ++ List.range jobs.length).findSome? fun i => if i < jobs.length then (st.pcs i).error? else none with
    | none => some (.ok ())
    | some e => some (.error e)
  else none

/-! ## Identity -/

/-- the options that concern the identity (`_cli.py:200-236`) -/
structure IdentityArgs where
  identityToken : Option Str
  clientId : Str
  clientSecret : Option Str
  disableAmbient : Bool
  issuer : Option Str
  forceOob : Bool
deriving DecidableEq, Repr

/-- what the identity depends on: `detect_credential` (`oidc.py:418-424`), `Issuer(url)`, the OAuth flow
`issuer.identity_token(client_id, client_secret, force_oob)` of the issuer at a URL, and the construction of tokens -/
structure IdentityLibs where
  detect : Str → Py (Option Str)
  issuer : Str → Py Unit
  interactive : Str → Str → Str → Bool → Py Oidc.IdentityToken
  token : Str → Str → Py Oidc.IdentityToken

/-- `_get_identity` (`_cli.py:1279-1304`); `now` is the clock reading of `SigningConfig.__init__`.  It never returns
`None`. -/
def getIdentity (libs : IdentityLibs) (now : Time) (args : IdentityArgs) (cfg : LoadedConfig) : Py Oidc.IdentityToken :=
  let ambient : Py (Option Str) := if args.disableAmbient then .ok none else libs.detect args.clientId
  let flow (url : Str) : Py Oidc.IdentityToken :=
    match libs.issuer url with
    | .error e => .error e
    | .ok () => libs.interactive url args.clientId (args.clientSecret.getD []) args.forceOob
  match ambient with
  | .error e => .error e
  | .ok (some (c :: cs)) => libs.token (c :: cs) args.clientId
  | .ok _ =>
    match args.issuer with
    | some url => flow url
    | none =>
      match SigningConfig.init now cfg.signingConfig cfg.forceTlogVersion with
      | .error e => .error e
      | .ok sc =>
        match sc.getOidcUrl with
        | .error e => .error e
        | .ok url => flow url

/-- the choice in `_sign_common` (`_cli.py:764-773`); an empty token counts as none -/
def signIdentity (libs : IdentityLibs) (now : Time) (args : IdentityArgs) (cfg : LoadedConfig) : Py Oidc.IdentityToken :=
  match args.identityToken with
  | some (c :: cs) => libs.token (c :: cs) args.clientId
  | _ => getIdentity libs now args cfg

/-! ## The commands -/

/-- the libraries of the signing commands -/
structure SignLibs where
  env : Env
  kp : KeyPairs
  tuf : Tuf.Env
  parsers : TrustParsers
  codec : StatementCodec
  disk : DiskEnv
  toJson : Bundle → Str
  /-- `json.loads` -/
  loads : Str → Option Json
  identity : IdentityLibs

/-- what the world decides during one command: clock readings, answers to the initial certificate request, to its
printing and to the calls for each file, the schedule of the threads and their order of completion.  The answers of
Fulcio depend on the identity token. -/
structure SignOracle where
  now : Time
  first : Oidc.IdentityToken → Answers
  shown : Answers
  perFile : Path → Answers × Answers
  schedule : List Nat
  order : List Nat

/-- everything a signing command changes -/
structure SignState where
  tuf : Tuf.World
  world : Signing.World
  disk : Disk

/-- the log version of a client -/
def apiVersionOf : RekorHandle → Rekor.ApiVersion
  | .v1 _ => .v1
  | .v2 _ => .v2

/-- the jobs of an output map -/
def jobsOf (o : SignOracle) (map : Dict Path SigningOutputs) : List Job :=
  map.map fun p => ⟨p.1, p.2, (o.perFile p.1).1, (o.perFile p.1).2⟩

/-- the threads start -/
def jobsStart (s : SignState) : JobsState := ⟨s.disk, s.world, fun _ => .start⟩

/-- `_sign_common` up to the threads (`_cli.py:760-780`): the context and the signer -/
def signPrepare (libs : SignLibs) (o : SignOracle) (trust : TrustArgs) (ident : IdentityArgs) (s : SignState) :
    Py (Context × Signer) × SignState :=
  match getTrustConfig (libs.disk.fs s.disk) libs.tuf libs.parsers trust s.tuf with
  | (.error e, t) => (.error e, { s with tuf := t })
  | (.ok cfg, t) =>
    let s := { s with tuf := t }
    match contextFromTrustConfig o.now ⟨cfg.rootMediaType, cfg.signingConfig, cfg.forceTlogVersion⟩ with
    | .error e => (.error e, s)
    | .ok services =>
      let ctx : Context := ⟨cfg.root, apiVersionOf services.rekor⟩
      match signIdentity libs.identity o.now ident cfg with
      | .error e => (.error e, s)
      | .ok token =>
        match Signer.init libs.env ctx libs.kp (o.first token) true s.world with
        | (.error e, w) => (.error e, { s with world := w })
        | (.ok signer, w) =>
          match signer.signingCert libs.env ctx libs.kp o.shown w with
          | (.error e, w) => (.error e, { s with world := w })
          | (.ok _, w) => (.ok (ctx, signer), { s with world := w })

/-- the shared environment of the threads -/
def jobEnv (libs : SignLibs) (ctx : Context) (signer : Signer) (predicate : Option (Str × Dict Str Json)) : JobEnv :=
  ⟨libs.env, ctx, libs.kp, signer, libs.codec, libs.disk, libs.toJson, predicate⟩

/-- `_sign_common` (`_cli.py:748-809`); the result is `none` if the schedule ends before the threads do -/
def signCommon (libs : SignLibs) (o : SignOracle) (trust : TrustArgs) (ident : IdentityArgs)
    (map : Dict Path SigningOutputs) (predicate : Option (Str × Dict Str Json)) (s : SignState) :
    Option (Py Unit) × SignState :=
  match signPrepare libs o trust ident s with
  | (.error e, s) => (some (.error e), s)
  | (.ok (ctx, signer), s) =>
    let st := runJobs (jobEnv libs ctx signer predicate) (jobsOf o map) (jobsStart s) o.schedule
    (jobsResult (jobsOf o map) o.order st, { s with world := st.world, disk := st.disk })

/-- `_sign` (`_cli.py:867-944`) -/
def signMain (libs : SignLibs) (o : SignOracle) (trust : TrustArgs) (ident : IdentityArgs) (args : SignArgs)
    (s : SignState) : Option (Py Unit) × SignState :=
  match signOutputs libs.disk args s.disk with
  | (.error e, d) => (some (.error e), { s with disk := d })
  | (.ok map, d) => signCommon libs o trust ident map none { s with disk := d }

/-- `_attest` (`_cli.py:812-864`) -/
def attestMain (libs : SignLibs) (o : SignOracle) (trust : TrustArgs) (ident : IdentityArgs) (args : AttestArgs)
    (s : SignState) : Option (Py Unit) × SignState :=
  match readPredicate libs.disk libs.loads args s.disk with
  | .error e => (some (.error e), s)
  | .ok json =>
    match attestOutputsLoop libs.disk args s.disk [] args.files with
    | .error e => (some (.error e), s)
    | .ok map => signCommon libs o trust ident map (some (args.predicateType, json)) s

end Sigstore.Cli
