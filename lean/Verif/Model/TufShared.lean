import Verif.Model.Tuf
import Verif.Model.CliSign

/-!
# Model of several processes that share the cache of one TUF repository (`/repo/sigstore/_internal/tuf.py`)

`Model/Tuf.lean` has one process that nothing disturbs.  Here any number of processes run `ClientTrustConfig.from_tuf`
(`models.py:951-980`) for one URL at the same time.  They interleave at every access to the cache and at every written byte, and
each may fail to write, or stop forever at any moment: a killed process is one that the schedule forgets.

The TUF client library is not part of `/repo`; what is taken from it (`tuf/ngclient/updater.py`): `find_cached_target` compares the
file with the listed length and hashes, and `download_target` verifies what it received and then writes it to the same file with
`open(filepath, "wb")`.  Simplifications: nobody removes files; `read_bytes()` sees the file at one moment; metadata
are private to each process (its answers are parameters).
-/

namespace Sigstore.TufShared

open Sigstore.Tuf

/-- the two artifacts (`tuf.py:89`) -/
inductive Artifact where
  | trustedRoot
  | signingConfig
deriving DecidableEq, Repr

/-- the files of the directory of targets -/
abbrev Cache := Artifact → Option Bytes

/-- what `open(path, "wb")` does -/
inductive Opening where
  | opened
  /-- `FileNotFoundError` -/
  | notFound
  /-- another `OSError` -/
  | fails
deriving DecidableEq, Repr

/-- what a process brings along and what happens to it -/
structure Proc where
  offline : Bool
  /-- `self._targets_dir.mkdir(parents=True, exist_ok=True)` succeeds (`tuf.py:87`) -/
  mkdir : Bool
  /-- `read_embedded(artifact, url)` (`tuf.py:93`); `none` is `FileNotFoundError` -/
  embedded : Artifact → Option Bytes
  /-- opening a file of the cache for writing -/
  opening : Artifact → Opening
  /-- the byte at the offset can be written, or, at the end of the data, the file be closed -/
  canPut : Artifact → Nat → Bool
  /-- reading the initial root (`tuf.py:108-114`) -/
  bootstrap : Py Unit
  /-- `Updater(...)` and `refresh()` succeed (`tuf.py:116-129`) -/
  refresh : Bool
  /-- `get_targetinfo` (`tuf.py:138`, `161`) -/
  targetInfo : Artifact → Py (Option TargetInfo)
  /-- the comparison of `find_cached_target` (`tuf.py:141`, `164`) -/
  fits : TargetInfo → Bytes → Bool
  /-- what `download_target` receives and verifies (`tuf.py:144`, `167`) -/
  download : TargetInfo → Except DownloadFailure Bytes
  /-- `TrustedRoot.from_json` and `SigningConfig.from_json` (`models.py:966`, `970`) -/
  parse : Artifact → Bytes → Py Unit

/-- where a process is.  From `want` on, `tr` is the content of the trusted root if it has been read already: with `none` the
process is about the trusted root, with `some _` about the signing config. -/
inductive Pc where
  | start
  /-- before `artifact_path.exists()` (`tuf.py:91`) -/
  | check (a : Artifact)
  /-- the file did not exist (`tuf.py:92-96`) -/
  | fill (a : Artifact)
  /-- inside `write_bytes` (`tuf.py:94`) -/
  | filling (a : Artifact) (data : Bytes) (n : Nat)
  /-- after the loop (`tuf.py:98-129`) -/
  | filled
  /-- in `get_trusted_root_path` or `get_signing_config_path` -/
  | want (tr : Option Bytes)
  /-- in `download_target`, before the file is opened -/
  | store (tr : Option Bytes) (data : Bytes)
  /-- in `download_target`, while the file is written -/
  | storing (tr : Option Bytes) (data : Bytes) (n : Nat)
  /-- before `Path(path).read_bytes()` (`models.py:966`, `970`) -/
  | load (tr : Option Bytes)
  | done (tr sc : Bytes)
  | failed (e : Exc)
deriving DecidableEq, Repr

/-- the artifact that the process is about -/
def artifactOf : Option Bytes → Artifact
  | none => .trustedRoot
  | some _ => .signingConfig

/-- the next round of the loop (`tuf.py:89`) -/
def nextFill : Artifact → Pc
  | .trustedRoot => .check .signingConfig
  | .signingConfig => .filled

/-- the processes and the cache -/
structure State where
  cache : Cache
  pcs : Nat → Pc

/-- a process comes to another point -/
def State.goto (st : State) (i : Nat) (pc : Pc) : State := { st with pcs := Function.update st.pcs i pc }

/-- a file of the cache gets another content -/
def State.set (st : State) (a : Artifact) (b : Bytes) : State := { st with cache := Function.update st.cache a (some b) }

/-- one step of a process: `from_tuf` (`models.py:951-980`), `TrustUpdater.__init__` (`tuf.py:69-129`), `get_trusted_root_path`
and `get_signing_config_path` (`tuf.py:131-175`) -/
def step (procs : List Proc) (st : State) (i : Nat) : State :=
  match procs[i]? with
  | none => st
  | some p =>
    match st.pcs i with
    | .start => if p.mkdir then st.goto i (.check .trustedRoot) else st.goto i (.failed .osError)
    | .check a =>
      match st.cache a with
      | some _ => st.goto i (nextFill a)
      | none => st.goto i (.fill a)
    | .fill a =>
      match p.embedded a with
      | none => st.goto i (nextFill a)
      | some data =>
        match p.opening a with
        | .opened => (st.set a []).goto i (.filling a data 0)
        | .notFound => st.goto i (nextFill a)
        | .fails => st.goto i (.failed .osError)
    | .filling a data n =>
      if p.canPut a n then
        match data[n]? with
        | none => st.goto i (nextFill a)
        | some byte => (st.set a (Cli.putByte ((st.cache a).getD []) n byte)).goto i (.filling a data (n + 1))
      else st.goto i (.failed .osError)
    | .filled =>
      if p.offline then st.goto i (.want none)
      else
        match p.bootstrap with
        | .error e => st.goto i (.failed e)
        | .ok () => if p.refresh then st.goto i (.want none) else st.goto i (.failed .tuf)
    | .want tr =>
      if p.offline then st.goto i (.load tr)
      else
        match p.targetInfo (artifactOf tr) with
        | .error e => st.goto i (.failed e)
        | .ok none => st.goto i (.failed .tuf)
        | .ok (some info) =>
          if (st.cache (artifactOf tr)).any (p.fits info) then st.goto i (.load tr)
          else
            match p.download info with
            | .error .tufLibrary => st.goto i (.failed .tuf)
            | .error (.other e) => st.goto i (.failed e)
            | .ok data => st.goto i (.store tr data)
    | .store tr data =>
      match p.opening (artifactOf tr) with
      | .opened => (st.set (artifactOf tr) []).goto i (.storing tr data 0)
      | _ => st.goto i (.failed .osError)
    | .storing tr data n =>
      if p.canPut (artifactOf tr) n then
        match data[n]? with
        | none => st.goto i (.load tr)
        | some byte =>
          (st.set (artifactOf tr) (Cli.putByte ((st.cache (artifactOf tr)).getD []) n byte)).goto i (.storing tr data (n + 1))
      else st.goto i (.failed .osError)
    | .load tr =>
      match st.cache (artifactOf tr) with
      | none => st.goto i (.failed .osError)
      | some b =>
        match p.parse (artifactOf tr) b with
        | .error e => st.goto i (.failed e)
        | .ok () =>
          match tr with
          | none => st.goto i (.want (some b))
          | some tr => st.goto i (.done tr b)
    | .done _ _ => st
    | .failed _ => st

/-- all processes at their beginning -/
def State.begin (cache : Cache) : State := ⟨cache, fun _ => .start⟩

/-- the processes in the order of a schedule -/
def run (procs : List Proc) (st : State) (schedule : List Nat) : State := schedule.foldl (step procs) st

end Sigstore.TufShared
