import Verif.Model.CliSign

/-!
# `sigstore sign` while other programs change files

`Verif.Model.CliSign` assumes that nobody else changes the file system during the command.  Here others do: before the checks of each
input, between the checks and the signing, and between any two steps of the threads.  Simplifications that remain: others do not
change files during the checks of one input (`_cli.py:902-942`), permissions and links stay, and a file that is written to is found
at its path (a file that others move away while it is written to is not followed).
-/

namespace Sigstore.Cli.Shared

open Sigstore.Trust Sigstore.Config Sigstore.Dsse Sigstore.Signing Sigstore.Cli

/-- what happens while the threads run: a step of one of them, or something that others do to the files -/
inductive Event where
  | step (i : Nat)
  | others (change : Disk → Disk)

/-- what others do during one command: before the checks of the `n`th input, between the checks and the signing, and meanwhile -/
structure Others where
  beforeCheck : Nat → Disk → Disk
  afterChecks : Disk → Disk
  events : List Event

/-- the effect of an event -/
def happens (je : JobEnv) (jobs : List Job) (st : JobsState) : Event → JobsState
  | .step i => jobStep je jobs st i
  | .others change => { st with disk := change st.disk }

/-- the threads (`_cli.py:782-801`) among others: the last state, and all states of the files on the way -/
def runShared (je : JobEnv) (jobs : List Job) (st : JobsState) : List Event → JobsState × List Disk
  | [] => (st, [st.disk])
  | e :: events => ((runShared je jobs (happens je jobs st e) events).1, st.disk :: (runShared je jobs (happens je jobs st e) events).2)

/-- the loop over the files (`_cli.py:901-942`), from the `n`th on -/
def signOutputsLoop (e : DiskEnv) (args : SignArgs) (meanwhile : Nat → Disk → Disk) (map : Dict Path SigningOutputs) :
    Nat → List Path → Disk → Py (Dict Path SigningOutputs) × Disk
  | _, [], d => (.ok map, d)
  | n, file :: rest, d =>
    match signOutputsOne e args file (meanwhile n d) with
    | (.error x, d) => (.error x, d)
    | (.ok o, d) => signOutputsLoop e args meanwhile (map.set file o) (n + 1) rest d

/-- `_sign` up to `_sign_common` (`_cli.py:867-942`) -/
def signOutputs (e : DiskEnv) (args : SignArgs) (meanwhile : Nat → Disk → Disk) (d : Disk) : Py (Dict Path SigningOutputs) × Disk :=
  if signConflict args then (.error (.systemExit 2), d) else signOutputsLoop e args meanwhile [] 0 args.files d

/-- `_sign_common` (`_cli.py:748-809`): the result, the state, and the states of the files while the threads ran -/
def signCommon (libs : SignLibs) (o : SignOracle) (events : List Event) (trust : TrustArgs) (ident : IdentityArgs)
    (map : Dict Path SigningOutputs) (predicate : Option (Str × Dict Str Json)) (s : SignState) :
    Option (Py Unit) × SignState × List Disk :=
  match signPrepare libs o trust ident s with
  | (.error e, s) => (some (.error e), s, [])
  | (.ok (ctx, signer), s) =>
    let r := runShared (jobEnv libs ctx signer predicate) (jobsOf o map) (jobsStart s) events
    (jobsResult (jobsOf o map) o.order r.1, { s with world := r.1.world, disk := r.1.disk }, r.2)

/-- `_sign` (`_cli.py:867-944`) -/
def signMain (libs : SignLibs) (o : SignOracle) (others : Others) (trust : TrustArgs) (ident : IdentityArgs) (args : SignArgs)
    (s : SignState) : Option (Py Unit) × SignState × List Disk :=
  match signOutputs libs.disk args others.beforeCheck s.disk with
  | (.error e, d) => (some (.error e), { s with disk := d }, [])
  | (.ok map, d) => signCommon libs o others.events trust ident map none { s with disk := others.afterChecks d }

end Sigstore.Cli.Shared
