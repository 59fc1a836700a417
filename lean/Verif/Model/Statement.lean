import Verif.Model.Dsse

/-!
# Model of the JSON layout of in-toto statements (`/repo/sigstore/dsse/__init__.py:38-102`)

What `pydantic` does with the declarations of `Subject` and `_Statement`, on arbitrary JSON documents.  Reading and writing
JSON text stays a parameter.
-/

namespace Sigstore.Dsse

/-- JSON text: `parse` is `none` for texts that are no JSON -/
structure JsonText where
  parse : Bytes → Option Json
  dump : Json → Bytes

/-- `StrictStr` -/
def strictStr : Json → Option Str
  | .str s => some s
  | _ => none

/-- `Optional[T]` -/
def optional {α : Type} (f : Json → Option α) : Json → Option (Option α)
  | .null => some none
  | j => (f j).map some

/-- one item of a digest set with the given names; `str` accepts strings only -/
def digestItem (names : List Str) (m : Str × Json) : Option (Str × Str) :=
  if m.1 ∈ names then (strictStr m.2).map (Prod.mk m.1) else none

/-- the items of a digest set -/
def digestItems (names : List Str) : List (Str × Json) → Option (Dict Str Str)
  | [] => some []
  | m :: ms =>
    match digestItem names m, digestItems names ms with
    | some x, some xs => some (x :: xs)
    | _, _ => none

/-- `RootModel[dict[Literal[names], str]]`: `DigestSet` (`dsse/__init__.py:46-50`) -/
def digestSet (names : List Str) : Json → Option (Dict Str Str)
  | .obj fields => digestItems names fields
  | _ => none

/-- `Subject` (`dsse/__init__.py:53-59`): `name` has no default, so it has to be present, if only as `null`.  Unknown members
are ignored. -/
def validateSubject : Json → Option Subject
  | .obj fields => do
    let name ← Dict.get? fields "name".toList >>= optional strictStr
    let digest ← Dict.get? fields "digest".toList >>= digestSet digestNames
    pure ⟨name, digest⟩
  | _ => none

/-- `list[Subject]` -/
def validateSubjects : List Json → Option (List Subject)
  | [] => some []
  | j :: js =>
    match validateSubject j, validateSubjects js with
    | some x, some xs => some (x :: xs)
    | _, _ => none

/-- the value of a field, which with `populate_by_name=True` (`dsse/__init__.py:67`) is found under its alias or else under its
Python name -/
def populated (fields : List (Str × Json)) (alias_ name : Str) : Option Json :=
  match Dict.get? fields alias_ with
  | some v => some v
  | none => Dict.get? fields name

/-- `Field(..., min_length=1)` of `list[Subject]` (`dsse/__init__.py:70`) -/
def subjectList : Json → Option (List Subject)
  | .arr [] => none
  | .arr l => validateSubjects l
  | _ => none

/-- `Optional[dict[str, Any]] = Field(None, ...)` (`dsse/__init__.py:72`) -/
def predicateField : Option Json → Option (Option (Dict Str Json))
  | none => some none
  | some .null => some none
  | some (.obj p) => some (some p)
  | some _ => none

/-- `Literal["https://in-toto.io/Statement/v1"]` (`dsse/__init__.py:69`) -/
def statementType : Str := "https://in-toto.io/Statement/v1".toList

/-- `_Statement.model_validate` (`dsse/__init__.py:62-72`).  Unknown members are ignored. -/
def validateStatement : Json → Option StatementInner
  | .obj fields => do
    let type_ ← populated fields "_type".toList "type_".toList
    if type_ ≠ .str statementType then none
    else do
      let subjects ← populated fields "subject".toList "subjects".toList >>= subjectList
      let predicateType ← populated fields "predicateType".toList "predicate_type".toList >>= strictStr
      let predicate ← predicateField (populated fields "predicate".toList "predicate".toList)
      pure ⟨subjects, predicateType, predicate⟩
  | _ => none

/-- `None` becomes `null` -/
def dumpOptional {α : Type} (f : α → Json) : Option α → Json
  | none => .null
  | some x => f x

/-- `Subject.model_dump` -/
def dumpSubject (s : Subject) : Json :=
  .obj [("name".toList, dumpOptional .str s.name), ("digest".toList, .obj (s.digest.map fun m => (m.1, .str m.2)))]

/-- `_Statement.model_dump(by_alias=True)` (`dsse/__init__.py:101`): the fields in the order of their declaration -/
def dumpStatement (s : StatementInner) : Json :=
  .obj [("_type".toList, .str statementType),
    ("subject".toList, .arr (s.subjects.map dumpSubject)),
    ("predicateType".toList, .str s.predicateType),
    ("predicate".toList, dumpOptional .obj s.predicate)]

/-- `_Statement.model_validate_json` and `model_dump_json(by_alias=True).encode()` -/
def StatementCodec.ofText (t : JsonText) : StatementCodec where
  parse := fun b => t.parse b >>= validateStatement
  dump := fun s => t.dump (dumpStatement s)

/-- `Subject(name=..., digest=...)` (`dsse/__init__.py:53-59`): `None` for a `ValidationError` -/
def makeSubject (name : Option Str) (digest : Dict Str Str) : Option Subject :=
  if ∀ m ∈ digest, m.1 ∈ digestNames then some ⟨name, digest⟩ else none

end Sigstore.Dsse
