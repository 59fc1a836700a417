import Verif.Props.JsonText

/-!
# C136: concrete documents and texts
-/

namespace Sigstore.Props

open Sigstore.Spec Sigstore.Dsse Sigstore.JsonIO Sigstore.Signing Sigstore.Cli

/-- one half is written and read -/
def exFloats : Floats := ⟨fun _ => "0.5".toList, fun s => if s = "0.5".toList then some (1 / 2) else none⟩

/-- a half is kept -/
theorem exFloats_half : FloatKept exFloats (1 / 2) :=
  ⟨by decide +kernel, by decide, ⟨'.', by decide, .inl rfl⟩, '0', ".5".toList, by decide, by decide⟩

/-- a document with characters that are escaped, a negative and a broken number, and objects within an array -/
def exTextDoc : Json :=
  .obj [("a\"b".toList, .arr [.num (-12), .num (1 / 2), .null, .bool true, .obj []]), ("\n\x01é".toList, .str "\\/".toList)]

/-- its text -/
example : write exFloats exTextDoc = "{\"a\\\"b\":[-12,0.5,null,true,{}],\"\\n\\u0001é\":\"\\\\/\"}".toList := by decide +kernel

/-- the hypotheses of `C136_document_iff` -/
theorem exTextDoc_kept : TextKept exFloats exTextDoc := by
  unfold exTextDoc
  refine kept_obj (by show List.Nodup ["a\"b".toList, "\n\x01é".toList]; decide) (List.forall_mem_cons.2 ⟨kept_arr ?_,
    List.forall_mem_cons.2 ⟨kept_str _ _, fun m hm => (by cases hm)⟩⟩)
  have num : ∀ q : ℚ, q.den = 1 ∨ FloatKept exFloats q → TextKept exFloats (.num q) :=
    fun q h => ⟨fun q' h' => (by cases h'; exact h), fun l h' => (by cases h')⟩
  refine List.forall_mem_cons.2 ⟨num _ (.inl (by decide +kernel)), List.forall_mem_cons.2 ⟨num _ (.inr exFloats_half),
    List.forall_mem_cons.2 ⟨kept_null _, List.forall_mem_cons.2 ⟨⟨fun q h => (by cases h), fun l h => (by cases h)⟩,
    List.forall_mem_cons.2 ⟨kept_obj List.nodup_nil fun m hm => (by cases hm), fun m hm => (by cases hm)⟩⟩⟩⟩⟩

/-- it is read back with a limit of three, and not with one of two -/
example : (text exFloats 3).parse ((text exFloats 3).dump exTextDoc) = some exTextDoc ∧
    (text exFloats 2).parse ((text exFloats 2).dump exTextDoc) = none := by decide +kernel

/-- blanks, upper case digits, two halves of a character, a repeated name, `-0` -/
example : (text exFloats 9).parse (utf8 " { \"a\" : [ 1 ,\t-0 ] , \"b\" : \"\\u00E9\\ud83d\\ude00\" , \"a\" : false }\n".toList) =
    some (.obj [("a".toList, .bool false), ("b".toList, .str "é😀".toList)]) := by decide +kernel

/-- no JSON: a comma at the end, a leading zero, half a character, a line break in a text, more text at the end, bytes that are no
text -/
example : (text exFloats 9).parse (utf8 "[1,]".toList) = none ∧ (text exFloats 9).parse (utf8 "[01]".toList) = none ∧
    (text exFloats 9).parse (utf8 "\"\\ud83d\"".toList) = none ∧ (text exFloats 9).parse (utf8 "\"\n\"".toList) = none ∧
    (text exFloats 9).parse (utf8 "1 2".toList) = none ∧ (text exFloats 9).parse [0xff] = none := by decide +kernel

/-- a statement that is built and read back, which meets the hypotheses of `C136_read_back_partial` -/
example : ∃ s, (nestedBuilder 2).build (.ofText (text exFloats 4)) = .ok s ∧
    (∀ sub ∈ (nestedBuilder 2).subjects, makeSubject sub.name sub.digest = some sub) ∧ StatementKept exFloats s.inner ∧
    Statement.ofBytes (.ofText (text exFloats 4)) s.contents = .ok s := by
  refine ⟨_, rfl, ?_, ⟨?_, ?_⟩, by decide +kernel⟩
  · intro sub h; cases List.mem_singleton.1 h; decide
  · intro sub h
    cases List.mem_singleton.1 h
    show List.Nodup ["sha256".toList]
    decide
  · intro p hp; cases hp; exact kept_nested _ 2

/-- the libraries with this format; the text of bundles is short, so that few steps write it -/
def exRealTextLibs : SignLibs := { exSignLibs with codec := .ofText (text exFloats 200), toJson := fun _ => "b".toList }

/-- the hypotheses of `C136_attested` -/
example : (attestMain exRealTextLibs (exOracle exTurns) exTrust exIdent exAttestArgs exAttestState).1 = some (.ok ()) ∧
    ∃ pred, exRealTextLibs.loads [] = some (.obj pred) ∧ TextKept exFloats (.obj pred) ∧ DepthLe 199 (.obj pred) := by
  refine ⟨by decide +kernel, _, rfl, ?_, ?_⟩
  · refine kept_obj (by decide) (List.forall_mem_cons.2 ⟨kept_obj (by decide) (List.forall_mem_cons.2 ⟨kept_str _ _,
      List.forall_mem_cons.2 ⟨kept_obj List.nodup_nil fun m hm => (by cases hm), fun m hm => (by cases hm)⟩⟩),
      List.forall_mem_cons.2 ⟨kept_obj (by decide) (List.forall_mem_cons.2 ⟨kept_obj (by decide) (List.forall_mem_cons.2
        ⟨kept_str _ _, fun m hm => (by cases hm)⟩), fun m hm => (by cases hm)⟩), fun m hm => (by cases hm)⟩⟩)
  · refine .obj _ _ (List.forall_mem_cons.2 ⟨.obj _ _ (List.forall_mem_cons.2 ⟨.str _ _,
      List.forall_mem_cons.2 ⟨.obj _ _ fun m hm => (by cases hm), fun m hm => (by cases hm)⟩⟩),
      List.forall_mem_cons.2 ⟨.obj _ _ (List.forall_mem_cons.2 ⟨.obj _ _ (List.forall_mem_cons.2
        ⟨.str _ _, fun m hm => (by cases hm)⟩), fun m hm => (by cases hm)⟩), fun m hm => (by cases hm)⟩⟩)

/-- numbers that are read are kept -/
theorem exFloats_read : ReadKept exFloats := by
  intro s q h
  by_cases hs : s = "0.5".toList
  · have : exFloats.read s = some (1 / 2) := if_pos hs
    rw [this] at h
    cases h
    exact .inr exFloats_half
  · have : exFloats.read s = none := if_neg hs
    rw [this] at h
    cases h

/-- the predicate of the example as a file -/
def exPredicateText : Str :=
  "{\"buildDefinition\": {\"buildType\": \"t\", \"externalParameters\": {}}, \"runDetails\": {\"builder\": {\"id\": \"i\"}}}".toList

/-- it is read as the predicate of the example, with a limit of three and not with one of two -/
example : (text exFloats 3).parse (utf8 exPredicateText) = some exPredicate ∧ (text exFloats 2).parse (utf8 exPredicateText) = none := by
  decide +kernel

/-- the libraries read the predicate with this format -/
def exFileLibs : SignLibs := { exRealTextLibs with loads := fun t => (text exFloats 300).parse (utf8 t) }

/-- the state with this file -/
def exFileState : SignState :=
  { exAttestState with disk := fun l => if l = exFileLibs.disk.resolve exAttestArgs.predicate then some (.file (utf8 exPredicateText)) else exAttestState.disk l }

/-- the hypotheses of `C136_attested_file` -/
example : (attestMain exFileLibs (exOracle exTurns) exTrust exIdent exAttestArgs exFileState).1 = some (.ok ()) := by decide +kernel

end Sigstore.Props
