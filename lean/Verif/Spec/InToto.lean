import Verif.Spec.Http
import Verif.Model.Dsse

/-!
# In-toto statements and SLSA provenance

Independent of the code: which JSON documents are in-toto v1 statements (`https://github.com/in-toto/attestation`,
`spec/v1/statement.md`) and SLSA provenance predicates v0.2 and v1 (`https://slsa.dev/provenance`).
-/

namespace Sigstore.Spec

open Sigstore.Dsse

/-- a member that may be absent or null -/
def OptionalAt (j : Json) (k : Str) (v : Option Json) : Prop :=
  match v with
  | some v => At j [k] v
  | none => Missing j [k] ∨ At j [k] .null

/-- the digest algorithms that are supported in subjects -/
def subjectDigests : List Str :=
  ["sha256".toList, "sha384".toList, "sha512".toList, "sha3_256".toList, "sha3_384".toList, "sha3_512".toList]

/-- a document that describes a subject -/
def SubjectIs (j : Json) (s : Subject) : Prop :=
  OptionalAt j "name".toList (s.name.map .str) ∧
  At j ["digest".toList] (.obj (s.digest.map fun m => (m.1, .str m.2))) ∧
  ∀ m ∈ s.digest, m.1 ∈ subjectDigests

/-- a document that is an in-toto v1 statement with this meaning -/
def StatementIs (j : Json) (s : StatementInner) : Prop :=
  At j ["_type".toList] (.str "https://in-toto.io/Statement/v1".toList) ∧
  (∃ l, At j ["subject".toList] (.arr l) ∧ l ≠ [] ∧ List.Forall₂ SubjectIs l s.subjects) ∧
  At j ["predicateType".toList] (.str s.predicateType) ∧
  OptionalAt j "predicate".toList (s.predicate.map .obj)

/-- the document with which a file is attested: one subject with the name and the SHA-256 digest (in hexadecimal) of the file -/
def attestation (name hex predicateType : Str) (predicate : Dict Str Json) : Json :=
  .obj [("_type".toList, .str "https://in-toto.io/Statement/v1".toList),
    ("subject".toList, .arr [.obj [("name".toList, .str name), ("digest".toList, .obj [("sha256".toList, .str hex)])]]),
    ("predicateType".toList, .str predicateType),
    ("predicate".toList, .obj predicate)]

/-! ## SLSA provenance -/

/-- a required member -/
def Has (j : Json) (k : Str) (P : Json → Prop) : Prop := ∃ v, At j [k] v ∧ P v

/-- a member that may be absent or null -/
def May (j : Json) (k : Str) (P : Json → Prop) : Prop := ∀ v, At j [k] v → v = .null ∨ P v

/-- an object with no other members than these -/
def Only (j : Json) (ks : List Str) : Prop := ∃ fields, j = .obj fields ∧ ∀ m ∈ fields, m.1 ∈ ks

/-- a text -/
def IsText (j : Json) : Prop := ∃ s, j = .str s

/-- an object -/
def IsObject (j : Json) : Prop := ∃ f, j = .obj f

/-- a list -/
def ListOf (P : Json → Prop) (j : Json) : Prop := ∃ l, j = .arr l ∧ ∀ x ∈ l, P x

/-- a map of texts -/
def TextMap (j : Json) : Prop := ∃ f, j = .obj f ∧ ∀ m ∈ f, IsText m.2

/-- digests in a predicate, which may also be Git's -/
def DigestMap (j : Json) : Prop :=
  ∃ f, j = .obj f ∧ ∀ m ∈ f, (m.1 ∈ subjectDigests ∨ m.1 = "sha1".toList ∨ m.1 = "gitCommit".toList) ∧ IsText m.2

/-- where readers of provenance differ: what is a boolean, and what is the content of a resource -/
structure Dialect where
  truth : Json → Prop
  content : Json → Prop

/-- as the SLSA documents have it: booleans, and contents as (base64) texts -/
def slsaDialect : Dialect := ⟨fun j => ∃ b, j = .bool b, IsText⟩

/-- what is in both dialects: booleans, and no contents -/
def commonDialect : Dialect := ⟨fun j => ∃ b, j = .bool b, fun _ => False⟩

/-- texts for booleans in any case -/
def TruthText (s : Str) : Prop :=
  s.map Char.toLower ∈ ["0".toList, "off".toList, "f".toList, "false".toList, "n".toList, "no".toList,
    "1".toList, "on".toList, "t".toList, "true".toList, "y".toList, "yes".toList]

/-- what the code reads: booleans also as numbers and texts, and no contents -/
def codeDialect : Dialect :=
  ⟨fun j => (∃ b, j = .bool b) ∨ j = .num 0 ∨ j = .num 1 ∨ ∃ s, j = .str s ∧ TruthText s, fun _ => False⟩

/-- SLSA provenance v0.2 -/
def ProvenanceV0_2 (d : Dialect) (j : Json) : Prop :=
  Only j ["builder".toList, "buildType".toList, "invocation".toList, "metadata".toList, "buildConfig".toList, "materials".toList] ∧
  Has j "builder".toList (fun b => Only b ["id".toList] ∧ Has b "id".toList IsText) ∧
  Has j "buildType".toList IsText ∧
  May j "invocation".toList (fun i => Only i ["configSource".toList, "parameters".toList, "environment".toList] ∧
    May i "configSource".toList (fun c => Only c ["uri".toList, "digest".toList, "entryPoint".toList] ∧
      May c "uri".toList IsText ∧ May c "digest".toList DigestMap ∧ May c "entryPoint".toList IsText) ∧
    May i "parameters".toList IsObject ∧ May i "environment".toList IsObject) ∧
  May j "metadata".toList (fun m => Only m ["buildInvocationId".toList, "buildStartedOn".toList, "buildFinishedOn".toList,
      "completeness".toList, "reproducible".toList] ∧
    May m "buildInvocationId".toList IsText ∧ May m "buildStartedOn".toList IsText ∧ May m "buildFinishedOn".toList IsText ∧
    May m "completeness".toList (fun c => Only c ["parameters".toList, "environment".toList, "materials".toList] ∧
      May c "parameters".toList d.truth ∧ May c "environment".toList d.truth ∧ May c "materials".toList d.truth) ∧
    May m "reproducible".toList d.truth) ∧
  May j "buildConfig".toList IsObject ∧
  May j "materials".toList (ListOf fun m => Only m ["uri".toList, "digest".toList] ∧
    May m "uri".toList IsText ∧ May m "digest".toList DigestMap)

/-- a description of a resource: a URI, digests or contents, and more -/
def Resource (d : Dialect) (j : Json) : Prop :=
  Only j ["name".toList, "uri".toList, "digest".toList, "content".toList, "downloadLocation".toList, "mediaType".toList,
    "annotations".toList] ∧
  May j "name".toList IsText ∧ May j "uri".toList IsText ∧ May j "digest".toList DigestMap ∧ May j "content".toList d.content ∧
  May j "downloadLocation".toList IsText ∧ May j "mediaType".toList IsText ∧ May j "annotations".toList IsObject ∧
  (Has j "uri".toList (fun u => ∃ c s, u = .str (c :: s)) ∨ Has j "digest".toList DigestMap ∨ Has j "content".toList d.content)

/-- SLSA provenance v1 -/
def ProvenanceV1 (d : Dialect) (j : Json) : Prop :=
  Only j ["buildDefinition".toList, "runDetails".toList] ∧
  Has j "buildDefinition".toList (fun b =>
    Only b ["buildType".toList, "externalParameters".toList, "internalParameters".toList, "resolvedDependencies".toList] ∧
    Has b "buildType".toList IsText ∧ Has b "externalParameters".toList IsObject ∧ May b "internalParameters".toList IsObject ∧
    May b "resolvedDependencies".toList (ListOf (Resource d))) ∧
  Has j "runDetails".toList (fun r => Only r ["builder".toList, "metadata".toList, "byproducts".toList] ∧
    Has r "builder".toList (fun b => Only b ["id".toList, "builderDependencies".toList, "version".toList] ∧
      Has b "id".toList IsText ∧ May b "builderDependencies".toList (ListOf (Resource d)) ∧ May b "version".toList TextMap) ∧
    May r "metadata".toList (fun m => Only m ["invocationId".toList, "startedOn".toList, "finishedOn".toList] ∧
      May m "invocationId".toList IsText ∧ May m "startedOn".toList IsText ∧ May m "finishedOn".toList IsText) ∧
    May r "byproducts".toList (ListOf (Resource d)))

end Sigstore.Spec
