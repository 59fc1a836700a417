import Verif.Model.Trust
import Verif.Prelude.Dict
import Mathlib.Data.List.Sort

/-!
# Model of `SigningConfig` (`/repo/sigstore/models.py:635-790`), the media type checks of `TrustedRoot` and
`SigningContext.from_trust_config` (`/repo/sigstore/sign.py:304-317`)
-/

namespace Sigstore.Config

open Sigstore.Trust

/-- `trustroot_v1.Service` (protobuf-specs `sigstore_trustroot.proto`) -/
structure Service where
  url : Str
  majorApiVersion : Nat
  validFor : Option TimeRange
  operator : Str
deriving DecidableEq, Repr

/-- `trustroot_v1.ServiceSelector` -/
inductive Selector where
  | undefined | all | any | exact
deriving DecidableEq, Repr

/-- `trustroot_v1.ServiceConfiguration`; the count is a `uint32` -/
structure ServiceConfiguration where
  selector : Selector
  count : Option Nat
deriving DecidableEq, Repr

/-- `trustroot_v1.SigningConfig` -/
structure SigningConfigMsg where
  mediaType : Str
  caUrls : List Service
  oidcUrls : List Service
  rekorTlogUrls : List Service
  rekorTlogConfig : Option ServiceConfiguration
  tsaUrls : List Service
  tsaConfig : Option ServiceConfiguration
deriving DecidableEq, Repr

/-- the first loop of `_get_valid_services` (`models.py:714-723`): usable services by operator, a `defaultdict(list)` -/
def groupByOperator (now : Time) (versions : List Nat) : List Service → Dict Str (List Service) → Dict Str (List Service)
  | [], d => d
  | s :: rest, d =>
    if s.majorApiVersion ∉ versions then groupByOperator now versions rest d
    else if !isTimerangeValid now s.validFor false then groupByOperator now versions rest d
    else groupByOperator now versions rest (Dict.set d s.operator ((Dict.get? d s.operator).getD [] ++ [s]))

/-- `op_services.sort(key=lambda s: s.major_api_version)`: a stable sort -/
def sortByVersion (l : List Service) : List Service :=
  l.insertionSort fun a b => a.majorApiVersion ≤ b.majorApiVersion

/-- the second loop (`models.py:725-730`).  `op_services[-1]` cannot fail, as no list in the dictionary is empty. -/
def onePerOperator (d : Dict Str (List Service)) : List Service :=
  d.values.filterMap fun l => (sortByVersion l).getLast?

/-- `SigningConfig._get_valid_services` (`models.py:706-751`) at clock reading `now` -/
def getValidServices (now : Time) (services : List Service) (versions : List Nat)
    (config : Option ServiceConfiguration) : Py (List Service) :=
  let result := onePerOperator (groupByOperator now versions services [])
  match config with
  | none => .ok result
  | some cfg =>
    if cfg.selector = .all then .ok result
    else
      let count := if cfg.selector = .exact ∧ cfg.count.getD 0 ≠ 0 then cfg.count.getD 0 else 1
      if cfg.selector = .exact ∧ result.length < count then .error .valueError
      else .ok (result.take count)

/-- a constructed `SigningConfig` -/
structure SigningConfig where
  tlogs : List Service
  tsas : List Service
  fulcios : List Service
  oidcs : List Service
deriving DecidableEq, Repr

/-- `SigningConfigType` (`models.py:640-649`) -/
def signingConfigMediaType : Str := "application/vnd.dev.sigstore.signingconfig.v0.2+json".toList

/-- `tlog_versions` (`models.py:672-675`) -/
def tlogVersionsFor : Option Nat → List Nat
  | none => [1, 2]
  | some v => [v]

/-- `SigningConfig.__init__` (`models.py:651-695`); versions from `models.py:69-72` -/
def SigningConfig.init (now : Time) (m : SigningConfigMsg) (tlogVersion : Option Nat) : Py SigningConfig :=
  if m.mediaType ≠ signingConfigMediaType then .error .error
  else
    match getValidServices now m.rekorTlogUrls (tlogVersionsFor tlogVersion) m.rekorTlogConfig with
    | .error e => .error e
    | .ok tlogs =>
      if tlogs = [] then .error .error
      else
        match getValidServices now m.tsaUrls [1] m.tsaConfig with
        | .error e => .error e
        | .ok tsas =>
          match getValidServices now m.caUrls [1] none with
          | .error e => .error e
          | .ok fulcios =>
            if fulcios = [] then .error .error
            else
              match getValidServices now m.oidcUrls [1] none with
              | .error e => .error e
              | .ok oidcs => .ok ⟨tlogs, tsas, fulcios, oidcs⟩

/-- a Rekor client: `RekorClient(url)` or `RekorV2Client(url)` -/
inductive RekorHandle where
  | v1 (url : Str)
  | v2 (url : Str)
deriving DecidableEq, Repr

/-- `SigningConfig.get_tlogs` (`models.py:753-769`) -/
def getTlogs : List Service → Py (List RekorHandle)
  | [] => .ok []
  | s :: rest =>
    let r : Py RekorHandle :=
      if s.majorApiVersion = 1 then .ok (.v1 s.url)
      else if s.majorApiVersion = 2 then .ok (.v2 s.url)
      else .error .assertionError
    match r with
    | .error e => .error e
    | .ok h =>
      match getTlogs rest with
      | .error e => .error e
      | .ok hs => .ok (h :: hs)

/-- `SigningConfig.get_fulcio` (`models.py:771-775`) -/
def SigningConfig.getFulcio (c : SigningConfig) : Py Str :=
  match c.fulcios with
  | [] => .error .indexError
  | s :: _ => .ok s.url

/-- `SigningConfig.get_oidc_url` (`models.py:777-784`) -/
def SigningConfig.getOidcUrl (c : SigningConfig) : Py Str :=
  match c.oidcs with
  | [] => .error .error
  | s :: _ => .ok s.url

/-- `SigningConfig.get_tsas` (`models.py:786-790`) -/
def SigningConfig.getTsas (c : SigningConfig) : List Str := c.tsas.map (·.url)

/-- `TrustedRootType` (`models.py:798-807`) -/
def trustedRootMediaType : Str := "application/vnd.dev.sigstore.trustedroot+json;version=0.1".toList

/-- `ClientTrustConfig` (`models.py:903-1005`); of the trusted root only its media type -/
structure ClientTrustConfig where
  trustedRootMediaType : Str
  signingConfig : SigningConfigMsg
  forceTlogVersion : Option Nat
deriving DecidableEq, Repr

/-- the URLs a `SigningContext` uses -/
structure ContextServices where
  fulcio : Str
  rekor : RekorHandle
  tsas : List Str
deriving DecidableEq, Repr

/-- `SigningContext.from_trust_config` (`sign.py:304-317`), keyword arguments evaluated in order; the trusted root is
checked by `TrustedRoot._verify` (`models.py:818-828`) -/
def contextFromTrustConfig (now : Time) (t : ClientTrustConfig) : Py ContextServices :=
  match SigningConfig.init now t.signingConfig t.forceTlogVersion with
  | .error e => .error e
  | .ok cfg =>
    match cfg.getFulcio with
    | .error e => .error e
    | .ok fulcio =>
      match getTlogs cfg.tlogs with
      | .error e => .error e
      | .ok [] => .error .indexError
      | .ok (rekor :: _) =>
        if t.trustedRootMediaType ≠ trustedRootMediaType then .error .error
        else .ok ⟨fulcio, rekor, cfg.getTsas⟩

end Sigstore.Config
