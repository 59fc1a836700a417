import Verif.Prelude.Path
import Verif.Prelude.Utf8
import Verif.Prelude.Hex

/-!
# Model of `/repo/sigstore/_internal/tuf.py`, of `read_embedded` (`/repo/sigstore/_utils.py:212-219`) and of
`ClientTrustConfig.from_tuf` (`/repo/sigstore/models.py:951-980`)
-/

namespace Sigstore.Tuf

/-! ## Directories -/

/-- an upper-case hex digit -/
def upperHexDigit (n : Nat) : Char := if n < 10 then Char.ofNat (48 + n) else Char.ofNat (55 + n)

/-- the bytes that `urllib.parse.quote` never escapes: letters, digits and `_.-~` -/
def alwaysSafe (b : UInt8) : Bool :=
  let n := b.toNat
  (65 ≤ n && n ≤ 90) || (97 ≤ n && n ≤ 122) || (48 ≤ n && n ≤ 57) || n == 95 || n == 46 || n == 45 || n == 126

/-- one byte in `quote`: itself, or `%XX` -/
def quoteByte (b : UInt8) : Str :=
  if alwaysSafe b then [Char.ofNat b.toNat]
  else ['%', upperHexDigit (b.toNat / 16), upperHexDigit (b.toNat % 16)]

/-- `urllib.parse.quote(s, safe="")` -/
def quote (s : Str) : Str := (utf8 s).flatMap quoteByte

/-- `url.rstrip("/")` (`tuf.py:82`) -/
def stripSlashes (url : Str) : Str := (url.reverse.dropWhile fun c => c = '/').reverse

/-- `_get_dirs` (`tuf.py:40-55`).  `dataBase` and `cacheBase` are the results of `platformdirs`. -/
def getDirs (dataBase cacheBase : Path) (url : Str) : Path × Path :=
  let repoBase := quote url
  (((dataBase.join "tuf".toList).join repoBase), ((cacheBase.join "tuf".toList).join repoBase))

/-! ## The TUF client library -/

/-- what `Updater.get_targetinfo` returns for a listed target; opaque to the modelled code -/
structure TargetInfo where
  id : Nat
deriving DecidableEq, Repr

/-- the exceptions that `download_target` raises, as far as the code tells them apart -/
inductive DownloadFailure where
  /-- `DownloadError` or `RepositoryError` -/
  | tufLibrary
  /-- anything else -/
  | other (e : Exc)
deriving DecidableEq, Repr

/-- a file system: the content of every regular file.  Simplification: paths are not resolved (no symbolic links). -/
abbrev Files := Path → Option Bytes

/-- Answers of the TUF client library (`tuf.ngclient.Updater`), which is not modelled. -/
structure Library where
  /-- constructing `Updater` with a bootstrap root and calling `refresh()`: whether no exception is raised -/
  refresh : Option Bytes → Bool
  /-- `get_targetinfo(name)` -/
  targetInfo : Str → Py (Option TargetInfo)
  /-- `find_cached_target(info)` -/
  findCached : Files → TargetInfo → Py (Option Path)
  /-- `download_target(info)`: the path written and its content -/
  download : TargetInfo → Except DownloadFailure (Path × Bytes)

/-- what the code asks the library for, in order; `refresh` and `download` access the network, `targetInfo` may -/
inductive Call where
  | refresh (url : Str) (bootstrap : Option Bytes)
  | targetInfo (name : Str)
  | findCached (info : TargetInfo)
  | download (info : TargetInfo)
deriving DecidableEq, Repr

/-- the rest of the world: files, and the calls to the library so far -/
structure World where
  files : Files
  calls : List Call

/-- log a call -/
def World.call (w : World) (c : Call) : World := { w with calls := w.calls ++ [c] }

/-- write a file -/
def World.write (w : World) (p : Path) (b : Bytes) : World :=
  { w with files := fun q => if q = p then some b else w.files q }

/-- things given from outside -/
structure Env where
  dataBase : Path
  cacheBase : Path
  /-- `read_embedded(name, url)`: `none` is `FileNotFoundError`.  (`_utils.py:212-219` reads `quote(url)/name` from the
  package.) -/
  embedded : (dir : Str) → (name : Str) → Option Bytes
  library : Library

/-- `"trusted_root.json"` -/
def trustedRootName : Str := "trusted_root.json".toList

/-- `"signing_config.v0.2.json"` -/
def signingConfigName : Str := "signing_config.v0.2.json".toList

/-- `"root.json"` -/
def rootName : Str := "root.json".toList

/-- `TrustUpdater` (`tuf.py:58-129`); the two `lru_cache`s of the methods are the last fields.
Simplification: `lru_cache` remembers the last 128 updaters, the model all. -/
structure TrustUpdater where
  url : Str
  metadataDir : Path
  targetsDir : Path
  /-- `self._updater is not None` -/
  online : Bool
  trustedRootPath : Option Path
  signingConfigPath : Option Path
deriving DecidableEq, Repr

/-- the loop that fills the cache from embedded data (`tuf.py:86-96`) for one artifact -/
def populate (env : Env) (url : Str) (targetsDir : Path) (w : World) (artifact : Str) : World :=
  let path := targetsDir.join artifact
  match w.files path with
  | some _ => w
  | none =>
    match env.embedded (quote url) artifact with
    | some data => w.write path data
    | none => w

/-- `TrustUpdater.__init__` (`tuf.py:69-129`).  `bootstrapRoot` is `None`, or what `bootstrap_root.read_bytes()` gives or
raises.  Simplification: creating the cache directory and writing to it do not fail. -/
def TrustUpdater.init (env : Env) (url : Str) (offline : Bool) (bootstrapRoot : Option (Py Bytes)) (w : World) :
    Py TrustUpdater × World :=
  let url := stripSlashes url
  let dirs := getDirs env.dataBase env.cacheBase url
  let w := [trustedRootName, signingConfigName].foldl (populate env url dirs.2) w
  if offline then
    (.ok ⟨url, dirs.1, dirs.2, false, none, none⟩, w)
  else
    let root : Py (Option Bytes) :=
      match env.embedded (quote url) rootName with
      | some b => .ok (some b)
      | none =>
        match bootstrapRoot with
        | some (.ok b) => .ok (some b)
        | some (.error e) => .error e
        | none => .ok none
    match root with
    | .error e => (.error e, w)
    | .ok rootJson =>
      let w := w.call (.refresh url rootJson)
      if env.library.refresh rootJson then (.ok ⟨url, dirs.1, dirs.2, true, none, none⟩, w)
      else (.error .tuf, w)

/-- the part shared by `get_trusted_root_path` and `get_signing_config_path` (`tuf.py:131-152`, `154-175`), which differ in
the name of the target only -/
def TrustUpdater.targetPath (env : Env) (u : TrustUpdater) (name : Str) (w : World) : Py Path × World :=
  if !u.online then (.ok (u.targetsDir.join name), w)
  else
    let w := w.call (.targetInfo name)
    match env.library.targetInfo name with
    | .error e => (.error e, w)
    | .ok none => (.error .tuf, w)
    | .ok (some info) =>
      let w := w.call (.findCached info)
      match env.library.findCached w.files info with
      | .error e => (.error e, w)
      | .ok (some path) => (.ok path, w)
      | .ok none =>
        let w := w.call (.download info)
        match env.library.download info with
        | .error .tufLibrary => (.error .tuf, w)
        | .error (.other e) => (.error e, w)
        | .ok (path, content) => (.ok path, w.write path content)

/-- `get_trusted_root_path` with its cache (`tuf.py:131-152`) -/
def TrustUpdater.getTrustedRootPath (env : Env) (u : TrustUpdater) (w : World) : Py Path × TrustUpdater × World :=
  match u.trustedRootPath with
  | some p => (.ok p, u, w)
  | none =>
    match u.targetPath env trustedRootName w with
    | (.ok p, w) => (.ok p, { u with trustedRootPath := some p }, w)
    | (.error e, w) => (.error e, u, w)

/-- `get_signing_config_path` with its cache (`tuf.py:154-175`) -/
def TrustUpdater.getSigningConfigPath (env : Env) (u : TrustUpdater) (w : World) : Py Path × TrustUpdater × World :=
  match u.signingConfigPath with
  | some p => (.ok p, u, w)
  | none =>
    match u.targetPath env signingConfigName w with
    | (.ok p, w) => (.ok p, { u with signingConfigPath := some p }, w)
    | (.error e, w) => (.error e, u, w)

/-- `Path(p).read_bytes()` -/
def readBytes (w : World) (p : Path) : Py Bytes :=
  match w.files p with
  | some b => .ok b
  | none => .error .osError

/-- `ClientTrustConfig.from_tuf` (`models.py:951-980`): the contents of the two files.  Parsing them is not modelled here. -/
def fromTuf (env : Env) (url : Str) (offline : Bool) (bootstrapRoot : Option (Py Bytes)) (w : World) :
    Py (Bytes × Bytes) × World :=
  match TrustUpdater.init env url offline bootstrapRoot w with
  | (.error e, w) => (.error e, w)
  | (.ok u, w) =>
    match u.getTrustedRootPath env w with
    | (.error e, _, w) => (.error e, w)
    | (.ok trPath, u, w) =>
      match readBytes w trPath with
      | .error e => (.error e, w)
      | .ok tr =>
        match u.getSigningConfigPath env w with
        | (.error e, _, w) => (.error e, w)
        | (.ok scPath, _, w) =>
          match readBytes w scPath with
          | .error e => (.error e, w)
          | .ok sc => (.ok (tr, sc), w)

/-- `DEFAULT_TUF_URL` (`tuf.py:36`) -/
def defaultTufUrl : Str := "https://tuf-repo-cdn.sigstore.dev".toList

/-- `STAGING_TUF_URL` (`tuf.py:37`) -/
def stagingTufUrl : Str := "https://tuf-repo-cdn.sigstage.dev".toList

end Sigstore.Tuf
