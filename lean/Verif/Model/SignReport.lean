import Verif.Model.CliReport
import Verif.Model.CliSign

/-!
# Model of what `sigstore sign` and `sigstore attest` write (`/repo/sigstore/_cli.py:697-809`)

Left out: records of other modules than `_cli.py` (for instance the warning of `sign.py:197` about a timestamp server), what the
OAuth flow writes, and failures of writing.
-/

namespace Sigstore.Cli

open Sigstore.Trust Sigstore.Dsse Sigstore.Signing Sigstore.Config

/-- `signPrepare` with what it writes (`_cli.py:760-780`): the certificate is printed when it was found not to be expired -/
def signPrepareSaid (libs : SignLibs) (o : SignOracle) (trust : TrustArgs) (ident : IdentityArgs) (s : SignState) :
    Py (Context × Signer) × SignState × List Said :=
  match getTrustConfig (libs.disk.fs s.disk) libs.tuf libs.parsers trust s.tuf with
  | (.error e, t) => (.error e, { s with tuf := t }, [])
  | (.ok cfg, t) =>
    let s := { s with tuf := t }
    match contextFromTrustConfig o.now ⟨cfg.rootMediaType, cfg.signingConfig, cfg.forceTlogVersion⟩ with
    | .error e => (.error e, s, [])
    | .ok services =>
      let ctx : Context := ⟨cfg.root, apiVersionOf services.rekor⟩
      match signIdentity libs.identity o.now ident cfg with
      | .error e => (.error e, s, [])
      | .ok token =>
        match Signer.init libs.env ctx libs.kp (o.first token) true s.world with
        | (.error e, w) => (.error e, { s with world := w }, [])
        | (.ok signer, w) =>
          let said := [.out "Using ephemeral certificate:".toList]
          match signer.signingCert libs.env ctx libs.kp o.shown w with
          | (.error e, w) => (.error e, { s with world := w }, said)
          | (.ok cert, w) => (.ok (ctx, signer), { s with world := w }, said ++ [.out (pemText cert.der)])

/-- the record after a successful signing call (`_cli.py:729-731`), of level `INFO` -/
def entrySaid (b : Bundle) : Said :=
  .log 20 (.text ("Transparency log entry created at index: ".toList ++ decimalInt b.entry.logIndex))

/-- the records of the handlers of the signing call (`_cli.py:722-727`) -/
def signErrorSaid (e : Exc) : List Said :=
  if e = .expiredIdentity then [.log 40 (.text "Signature failed: identity token has expired".toList)]
  else if e = .expiredCertificate then [.log 40 (.text "Signature failed: Fulcio signing certificate has expired".toList)]
  else []

/-- what a step of thread `i` writes (`_cli.py:709-731`) -/
def jobSaid (je : JobEnv) (jobs : List Job) (st : JobsState) (i : Nat) : List Said :=
  match jobs[i]? with
  | none => []
  | some job =>
    match st.pcs i with
    | .hashed h =>
      match callFor je job.file h with
      | .error e => signErrorSaid e
      | .ok call =>
        match je.signer.sign je.env je.ctx je.kp job.answers st.world call with
        | (.error e, _) => signErrorSaid e
        | (.ok b, _) => [entrySaid b]
    | _ => []

/-- what the threads write under a schedule, each record with the number of its thread -/
def runJobsSaid (je : JobEnv) (jobs : List Job) : JobsState → List Nat → List (Nat × Said)
  | _, [] => []
  | st, i :: schedule => (jobSaid je jobs st i).map (i, ·) ++ runJobsSaid je jobs (jobStep je jobs st i) schedule

/-- the lines about the outputs of a file (`_cli.py:803-809`) -/
def writtenSaid (o : SigningOutputs) : List Said :=
  (o.signature.map fun p => Said.out ("Signature written to ".toList ++ Path.str p)).toList ++
  (o.certificate.map fun p => Said.out ("Certificate written to ".toList ++ Path.str p)).toList ++
  (o.bundle.map fun p => Said.out ("Sigstore bundle written to ".toList ++ Path.str p)).toList

/-- `signCommon` with what it writes: before the threads, each record of a thread, after the threads (`_cli.py:776-809`) -/
def signCommonSaid (libs : SignLibs) (o : SignOracle) (trust : TrustArgs) (ident : IdentityArgs)
    (map : Dict Path SigningOutputs) (predicate : Option (Str × Dict Str Json)) (s : SignState) :
    Option (Py Unit) × SignState × List Said × List (Nat × Said) × List Said :=
  match signPrepareSaid libs o trust ident s with
  | (.error e, s, said) => (some (.error e), s, said, [], [])
  | (.ok (ctx, signer), s, said) =>
    let je := jobEnv libs ctx signer predicate
    let st := runJobs je (jobsOf o map) (jobsStart s) o.schedule
    let r := jobsResult (jobsOf o map) o.order st
    (r, { s with world := st.world, disk := st.disk }, said, runJobsSaid je (jobsOf o map) (jobsStart s) o.schedule,
      match r with
      | some (.ok ()) => map.flatMap fun p => writtenSaid p.2
      | _ => [])

/-- all that is written, in order -/
def flatSaid (x : List Said × List (Nat × Said) × List Said) : List Said := x.1 ++ x.2.1.map (·.2) ++ x.2.2

/-- `signMain` with what it writes -/
def signMainSaid (libs : SignLibs) (o : SignOracle) (trust : TrustArgs) (ident : IdentityArgs) (args : SignArgs)
    (s : SignState) : Option (Py Unit) × SignState × List Said × List (Nat × Said) × List Said :=
  match signOutputs libs.disk args s.disk with
  | (.error e, d) => (some (.error e), { s with disk := d }, [], [], [])
  | (.ok map, d) => signCommonSaid libs o trust ident map none { s with disk := d }

/-- `attestMain` with what it writes -/
def attestMainSaid (libs : SignLibs) (o : SignOracle) (trust : TrustArgs) (ident : IdentityArgs) (args : AttestArgs)
    (s : SignState) : Option (Py Unit) × SignState × List Said × List (Nat × Said) × List Said :=
  match readPredicate libs.disk libs.loads args s.disk with
  | .error e => (some (.error e), s, [], [], [])
  | .ok json =>
    match attestOutputsLoop libs.disk args s.disk [] args.files with
    | .error e => (some (.error e), s, [], [], [])
    | .ok map => signCommonSaid libs o trust ident map (some (args.predicateType, json)) s

/-- the handler of `main` around a signing command (`_cli.py:645-667`) -/
def signingRun (verbose : Bool) (x : Option (Py Unit) × SignState × List Said × List (Nat × Said) × List Said) :
    Option (Py Unit) × SignState × List Said :=
  (x.1.map (mainHandler verbose), x.2.1,
    flatSaid x.2.2 ++ match x.1 with
      | none => []
      | some r => handlerSaid verbose r)

end Sigstore.Cli
