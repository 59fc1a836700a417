import Verif.Spec.Tuf
import Verif.Model.CliTrust

/-!
# Specification of trust material over several runs
-/

namespace Sigstore.Spec

open Sigstore.Tuf Sigstore.Cli

/-- where the artifacts of an instance are cached -/
def instanceDir (env : Env) (url : Str) : Path := (getDirs env.dataBase env.cacheBase (stripSlashes url)).2

/-- What the TUF client library promises about places (`tuf/ngclient/updater.py`, `_generate_target_file_path`): a target lies
in the directory of targets under its quoted name, and quoting changes neither of the two names. -/
structure StoresIn (lib : Library) (dir : Path) : Prop where
  cached : ∀ name info files p, name = "trusted_root.json".toList ∨ name = "signing_config.v0.2.json".toList →
    lib.targetInfo name = .ok (some info) → lib.findCached files info = .ok (some p) → p = dir.join name
  downloaded : ∀ name info p b, name = "trusted_root.json".toList ∨ name = "signing_config.v0.2.json".toList →
    lib.targetInfo name = .ok (some info) → lib.download info = .ok (p, b) → p = dir.join name

/-- a run of any command that asks for trust material -/
structure TrustRun where
  env : Env
  url : Str
  offline : Bool
  boot : Option (Py Bytes)

/-- the world after some runs, one after the other, whether or not they succeed -/
def afterRuns (runs : List TrustRun) (w : World) : World :=
  runs.foldl (fun w r => (fromTuf r.env r.url r.offline r.boot w).2) w

/-- the run is on the same computer, and if it is online then it is about another instance -/
def Leaves (env : Env) (url : Str) (r : TrustRun) : Prop :=
  r.env.cacheBase = env.cacheBase ∧
    (r.offline = true ∨ (stripSlashes r.url ≠ stripSlashes url ∧ StoresIn r.env.library (instanceDir r.env r.url)))

/-- a URL that names a directory of its own -/
def ProperUrl (url : Str) : Prop := stripSlashes url ≠ [] ∧ stripSlashes url ≠ ".".toList ∧ stripSlashes url ≠ "..".toList

end Sigstore.Spec
