import Verif.Model.Statement

/-!
# Model of `/repo/sigstore/dsse/_predicate.py`

What `pydantic` does with the declarations of the SLSA models when `_attest` passes a document that `json.load` has read
(`SLSAPredicateV0_2.model_validate(predicate)`): only whether it raises `ValidationError` matters.
-/

namespace Sigstore.Slsa

open Sigstore.Dsse

/-- a field of a model: its alias (`to_camel` of its name), whether it has no default, and the values it accepts -/
structure Field where
  alias_ : Str
  required : Bool
  accepts : Json → Bool

/-- a field without a default -/
def req (alias_ : Str) (accepts : Json → Bool) : Field := ⟨alias_, true, accepts⟩

/-- a field `T | None = None` -/
def opt (alias_ : Str) (accepts : Json → Bool) : Field := ⟨alias_, false, fun j => j == .null || accepts j⟩

/-- a model with `_SLSAConfigBase` (`_predicate.py:65-70`): fields are found under their alias only, and unknown members are
errors (`extra="forbid"`) -/
def model (fields : List Field) : Json → Bool
  | .obj members =>
    members.all (fun m => fields.any fun f => decide (f.alias_ = m.1)) &&
    fields.all fun f =>
      match Dict.get? members f.alias_ with
      | none => !f.required
      | some v => f.accepts v
  | _ => false

/-- `StrictStr` -/
def str (j : Json) : Bool := (strictStr j).isSome

/-- the texts `pydantic` takes for a boolean, in lower case -/
def boolTexts : List Str :=
  ["0".toList, "off".toList, "f".toList, "false".toList, "n".toList, "no".toList, "1".toList, "on".toList, "t".toList,
   "true".toList, "y".toList, "yes".toList]

/-- ASCII lower case of a letter -/
def lowerChar (c : Char) : Char := if 'A' ≤ c ∧ c ≤ 'Z' then Char.ofNat (c.toNat + 32) else c

/-- `bool`, which is not strict: also `0`, `1` and some texts -/
def bool : Json → Bool
  | .bool _ => true
  | .num q => decide (q = 0) || decide (q = 1)
  | .str s => decide (s.map lowerChar ∈ boolTexts)
  | _ => false

/-- `dict[str, Any]` and `dict[StrictStr, Any]`; the keys of a document that was read from JSON are texts -/
def anyDict : Json → Bool
  | .obj _ => true
  | _ => false

/-- `dict[StrictStr, StrictStr]` -/
def strDict : Json → Bool
  | .obj members => members.all fun m => str m.2
  | _ => false

/-- `list[T]` -/
def list (accepts : Json → Bool) : Json → Bool
  | .arr items => items.all accepts
  | _ => false

/-- `StrictBytes`: no document read from JSON has bytes in it -/
def strictBytes (_ : Json) : Bool := false

/-- the members of `Digest` and `SourceDigest` (`_predicate.py:46-47`) -/
def sourceDigestNames : List Str := digestNames ++ ["sha1".toList, "gitCommit".toList]

/-- `DigestSetSource` (`_predicate.py:47`) -/
def digestSetSource (j : Json) : Bool := (digestSet sourceDigestNames j).isSome

/-- `BuilderV0_1` (`_predicate.py:76-81`) -/
def builderV0_1 : Json → Bool := model [req "id".toList str]

/-- `ConfigSource` (`_predicate.py:84-91`) -/
def configSource : Json → Bool :=
  model [opt "uri".toList str, opt "digest".toList digestSetSource, opt "entryPoint".toList str]

/-- `Invocation` (`_predicate.py:94-101`) -/
def invocation : Json → Bool :=
  model [opt "configSource".toList configSource, opt "parameters".toList anyDict, opt "environment".toList anyDict]

/-- `Completeness` (`_predicate.py:104-111`) -/
def completeness : Json → Bool :=
  model [opt "parameters".toList bool, opt "environment".toList bool, opt "materials".toList bool]

/-- `Material` (`_predicate.py:114-120`) -/
def material : Json → Bool := model [opt "uri".toList str, opt "digest".toList digestSetSource]

/-- `Metadata` (`_predicate.py:123-132`) -/
def metadata : Json → Bool :=
  model [opt "buildInvocationId".toList str, opt "buildStartedOn".toList str, opt "buildFinishedOn".toList str,
    opt "completeness".toList completeness, opt "reproducible".toList bool]

/-- `SLSAPredicateV0_2` (`_predicate.py:135-145`) -/
def predicateV0_2 : Json → Bool :=
  model [req "builder".toList builderV0_1, req "buildType".toList str, opt "invocation".toList invocation,
    opt "metadata".toList metadata, opt "buildConfig".toList anyDict, opt "materials".toList (list material)]

/-- whether an optional text of an accepted document is true in a condition -/
def truthyStr (members : List (Str × Json)) (alias_ : Str) : Bool :=
  match Dict.get? members alias_ with
  | some (.str s) => s != []
  | _ => false

/-- whether an optional model of an accepted document is true in a condition: model objects have no `__bool__` or `__len__`, so
all but `None` are -/
def truthyModel (members : List (Str × Json)) (alias_ : Str) : Bool :=
  match Dict.get? members alias_ with
  | none => false
  | some .null => false
  | some _ => true

/-- the fields of `ResourceDescriptor` (`_predicate.py:156-162`) -/
def descriptorFields : Json → Bool :=
  model [opt "name".toList str, opt "uri".toList str, opt "digest".toList digestSetSource, opt "content".toList strictBytes,
    opt "downloadLocation".toList str, opt "mediaType".toList str, opt "annotations".toList anyDict]

/-- `ResourceDescriptor` with `check_required_fields` (`_predicate.py:151-174`).  (`content` is `None` if the fields are
accepted.) -/
def resourceDescriptor (j : Json) : Bool :=
  descriptorFields j &&
    match j with
    | .obj members => truthyStr members "uri".toList || truthyModel members "digest".toList
    | _ => false

/-- `BuilderV1_0` (`_predicate.py:177-184`) -/
def builderV1_0 : Json → Bool :=
  model [req "id".toList str, opt "builderDependencies".toList (list resourceDescriptor), opt "version".toList strDict]

/-- `BuildMetadata` (`_predicate.py:187-194`) -/
def buildMetadata : Json → Bool :=
  model [opt "invocationId".toList str, opt "startedOn".toList str, opt "finishedOn".toList str]

/-- `RunDetails` (`_predicate.py:197-204`) -/
def runDetails : Json → Bool :=
  model [req "builder".toList builderV1_0, opt "metadata".toList buildMetadata,
    opt "byproducts".toList (list resourceDescriptor)]

/-- `BuildDefinition` (`_predicate.py:207-215`) -/
def buildDefinition : Json → Bool :=
  model [req "buildType".toList str, req "externalParameters".toList anyDict, opt "internalParameters".toList anyDict,
    opt "resolvedDependencies".toList (list resourceDescriptor)]

/-- `SLSAPredicateV1_0` (`_predicate.py:218-224`) -/
def predicateV1_0 : Json → Bool :=
  model [req "buildDefinition".toList buildDefinition, req "runDetails".toList runDetails]

end Sigstore.Slsa
