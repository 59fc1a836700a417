import Verif.Spec.InToto
import Verif.Props.Slsa
import Verif.Props.Dsse
import Verif.Props.CliSignExamples
import Verif.Model.Statement

/-!
# In-toto statements as JSON documents: C34 (building), C86, and C87: what `attest` signs
-/

namespace Sigstore.Props

open Sigstore.Spec Sigstore.Dsse Sigstore.Trust Sigstore.Signing Sigstore.Cli

theorem missing_obj_iff (fields : List (Str × Json)) (k : Str) : Missing (.obj fields) [k] ↔ Dict.get? fields k = none := by
  unfold Missing
  constructor
  · rintro ⟨f, h, h' | ⟨_, _, h'⟩⟩
    · cases h; exact h'
    · exact h'.elim
  · intro h; exact ⟨fields, rfl, .inl h⟩

theorem optionalAt_obj_iff (fields : List (Str × Json)) (k : Str) (v : Option Json) :
    OptionalAt (.obj fields) k v ↔ match v with
      | some v => Dict.get? fields k = some v
      | none => Dict.get? fields k = none ∨ Dict.get? fields k = some .null := by
  unfold OptionalAt
  cases v with
  | some v => exact at_obj_iff _ _ _
  | none => exact or_congr (missing_obj_iff _ _) (at_obj_iff _ _ _)

theorem strictStr_iff (j : Json) (s : Str) : strictStr j = some s ↔ j = .str s := by
  cases j <;> simp [strictStr]

theorem optional_strictStr_iff (j : Json) (n : Option Str) :
    Dsse.optional strictStr j = some n ↔ j = (match n with | none => .null | some s => .str s) := by
  cases j <;> cases n <;> simp [Dsse.optional, strictStr]

theorem digestItem_iff (names : List Str) (m : Str × Json) (x : Str × Str) :
    digestItem names m = some x ↔ m = (x.1, .str x.2) ∧ x.1 ∈ names := by
  obtain ⟨k, v⟩ := m
  obtain ⟨l, t⟩ := x
  unfold digestItem
  dsimp only
  by_cases h : k ∈ names
  · rw [if_pos h]
    constructor
    · intro h'
      obtain ⟨s, h1, h2⟩ := Option.map_eq_some_iff.1 h'
      cases h2
      rw [(strictStr_iff _ _).1 h1]
      exact ⟨rfl, h⟩
    · rintro ⟨h', -⟩
      cases h'
      rfl
  · rw [if_neg h]
    constructor
    · intro h'; cases h'
    · rintro ⟨h', h2⟩; cases h'; exact absurd h2 h

theorem digestItems_iff (names : List Str) (f : List (Str × Json)) (d : Dict Str Str) :
    digestItems names f = some d ↔ f = d.map (fun m => (m.1, .str m.2)) ∧ ∀ m ∈ d, m.1 ∈ names := by
  induction f generalizing d with
  | nil =>
    constructor
    · intro h; cases h; exact ⟨rfl, fun m hm => (by cases hm)⟩
    · rintro ⟨h, -⟩
      cases d with
      | nil => rfl
      | cons m d => cases h
  | cons m f ih =>
    rw [digestItems]
    constructor
    · intro h
      cases h1 : digestItem names m with
      | none => rw [h1] at h; cases h
      | some x =>
        cases h2 : digestItems names f with
        | none => rw [h1, h2] at h; cases h
        | some xs =>
          rw [h1, h2] at h
          cases h
          obtain ⟨g1, g2⟩ := (ih xs).1 h2
          obtain ⟨g3, g4⟩ := (digestItem_iff _ _ _).1 h1
          rw [List.map_cons, ← g1, ← g3]
          exact ⟨rfl, List.forall_mem_cons.2 ⟨g4, g2⟩⟩
    · rintro ⟨h1, h2⟩
      cases d with
      | nil => cases h1
      | cons x xs =>
        rw [List.map_cons] at h1
        obtain ⟨h3, h4⟩ := List.cons.inj h1
        obtain ⟨g1, g2⟩ := List.forall_mem_cons.1 h2
        rw [(digestItem_iff _ _ _).2 ⟨h3, g1⟩, (ih xs).2 ⟨h4, g2⟩]

theorem digestSet_iff (names : List Str) (j : Json) (d : Dict Str Str) :
    digestSet names j = some d ↔ j = .obj (d.map fun m => (m.1, .str m.2)) ∧ ∀ m ∈ d, m.1 ∈ names := by
  cases j with
  | obj f =>
    show digestItems names f = some d ↔ _
    rw [digestItems_iff, Json.obj.injEq]
  | _ => exact ⟨fun h => (by cases h), fun h => (by cases h.1)⟩

/-- what a subject is to the code: one that does have a member `name` -/
theorem validateSubject_iff (j : Json) (s : Subject) :
    validateSubject j = some s ↔ SubjectIs j s ∧ ¬ Missing j ["name".toList] := by
  cases j with
  | obj fields =>
    unfold validateSubject SubjectIs
    simp only [Option.bind_eq_bind, Option.bind_eq_some_iff, optionalAt_obj_iff, at_obj_iff, missing_obj_iff,
      optional_strictStr_iff, digestSet_iff]
    obtain ⟨name, digest⟩ := s
    constructor
    · rintro ⟨n, ⟨v, h1, h2⟩, d, ⟨w, h3, h4, h5⟩, h6⟩
      cases h6
      subst h2 h4
      refine ⟨⟨?_, h3, h5⟩, fun h => ?_⟩
      · cases name with
        | none => exact .inr h1
        | some n => exact h1
      · rw [h1] at h; cases h
    · rintro ⟨⟨h1, h2, h3⟩, h4⟩
      refine ⟨name, ⟨_, ?_, rfl⟩, digest, ⟨_, h2, rfl, h3⟩, rfl⟩
      cases name with
      | none => exact h1.resolve_left h4
      | some n => exact h1
  | _ =>
    refine ⟨fun h => (by cases h), ?_⟩
    rintro ⟨⟨_, ⟨_, _, h, _⟩, _⟩, _⟩
    cases h

theorem validateSubjects_iff (l : List Json) (ss : List Subject) :
    validateSubjects l = some ss ↔ List.Forall₂ SubjectIs l ss ∧ ∀ x ∈ l, ¬ Missing x ["name".toList] := by
  induction l generalizing ss with
  | nil =>
    constructor
    · intro h; cases h; exact ⟨.nil, fun x hx => (by cases hx)⟩
    · rintro ⟨h, -⟩; cases h; rfl
  | cons j l ih =>
    rw [validateSubjects]
    constructor
    · intro h
      cases h1 : validateSubject j with
      | none => rw [h1] at h; cases h
      | some x =>
        cases h2 : validateSubjects l with
        | none => rw [h1, h2] at h; cases h
        | some xs =>
          rw [h1, h2] at h
          cases h
          obtain ⟨g1, g2⟩ := (ih xs).1 h2
          obtain ⟨g3, g4⟩ := (validateSubject_iff _ _).1 h1
          exact ⟨.cons g3 g1, List.forall_mem_cons.2 ⟨g4, g2⟩⟩
    · rintro ⟨h1, h2⟩
      obtain ⟨g1, g2⟩ := List.forall_mem_cons.1 h2
      cases h1 with
      | cons h3 h4 => rw [(validateSubject_iff _ _).2 ⟨h3, g1⟩, (ih _).2 ⟨h4, g2⟩]

theorem subjectList_iff (j : Json) (ss : List Subject) :
    subjectList j = some ss ↔ ∃ l, j = .arr l ∧ l ≠ [] ∧ List.Forall₂ SubjectIs l ss ∧ ∀ x ∈ l, ¬ Missing x ["name".toList] := by
  cases j with
  | arr l =>
    cases l with
    | nil =>
      refine ⟨fun h => (by cases h), ?_⟩
      rintro ⟨l, h, h', _⟩
      cases h
      exact absurd rfl h'
    | cons x l =>
      show validateSubjects (x :: l) = some ss ↔ _
      rw [validateSubjects_iff]
      constructor
      · intro h; exact ⟨_, rfl, by simp, h⟩
      · rintro ⟨l', h, _, h'⟩; cases h; exact h'
  | _ => exact ⟨fun h => (by cases h), fun ⟨_, h, _⟩ => (by cases h)⟩

theorem predicateField_iff (x : Option Json) (p : Option (Dict Str Json)) :
    predicateField x = some p ↔ match p with
      | some f => x = some (.obj f)
      | none => x = none ∨ x = some .null := by
  cases x with
  | none => cases p <;> simp [predicateField]
  | some j => cases j <;> cases p <;> simp [predicateField]

/-- fields without the Python name are found under their alias -/
theorem populated_of_none {fields : List (Str × Json)} {alias_ name : Str} (h : Dict.get? fields name = none) :
    populated fields alias_ name = Dict.get? fields alias_ := by
  unfold populated
  cases Dict.get? fields alias_ with
  | none => exact h
  | some v => rfl

theorem populated_self (fields : List (Str × Json)) (name : Str) : populated fields name name = Dict.get? fields name := by
  unfold populated
  cases Dict.get? fields name <;> rfl

/-- **C86** (partial; see `C86_python_names` and `C86_unnamed_subject` for what fails) For documents that do not use the names of
the Python attributes as members: one is accepted with some meaning exactly if it is an in-toto v1 statement with that meaning and
every subject has a member `name`. -/
theorem C86_statement_iff_partial (fields : List (Str × Json)) (s : StatementInner)
    (h1 : Dict.get? fields "type_".toList = none) (h2 : Dict.get? fields "subjects".toList = none)
    (h3 : Dict.get? fields "predicate_type".toList = none) :
    validateStatement (.obj fields) = some s ↔ StatementIs (.obj fields) s ∧
      ∀ l, At (.obj fields) ["subject".toList] (.arr l) → ∀ x ∈ l, ¬ Missing x ["name".toList] := by
  unfold validateStatement StatementIs
  obtain ⟨subjects, predicateType, predicate⟩ := s
  simp only [Option.bind_eq_bind, Option.bind_eq_some_iff, populated_of_none h1, populated_of_none h2, populated_of_none h3,
    populated_self, at_obj_iff, optionalAt_obj_iff]
  constructor
  · rintro ⟨t, ht, h⟩
    by_cases hty : t = .str statementType
    · rw [if_neg (fun h => h hty)] at h
      simp only [Option.bind_eq_some_iff, subjectList_iff, strictStr_iff, predicateField_iff] at h
      obtain ⟨ss, ⟨v, hv, l, rfl, hl, hf, hn⟩, pt, ⟨w, hw, rfl⟩, p, hp, he⟩ := h
      cases he
      subst hty
      refine ⟨⟨ht, ⟨l, hv, hl, hf⟩, hw, ?_⟩, ?_⟩
      · cases predicate with
        | none => exact hp
        | some f => exact hp
      · intro l' hl' x hx
        rw [hv] at hl'
        cases hl'
        exact hn x hx
    · rw [if_pos hty] at h
      cases h
  · rintro ⟨⟨ht, ⟨l, hl, hne, hf⟩, hpt, hp⟩, hn⟩
    refine ⟨_, ht, ?_⟩
    rw [if_neg (fun h => h rfl)]
    simp only [Option.bind_eq_some_iff, subjectList_iff, strictStr_iff, predicateField_iff]
    refine ⟨subjects, ⟨_, hl, l, rfl, hne, hf, hn l hl⟩, predicateType, ⟨_, hpt, rfl⟩, predicate, ?_, rfl⟩
    cases predicate with
    | none => exact hp
    | some f => exact hp

/-- a statement with the given members for the type, the subjects and the predicate type -/
def exStatement (type_ subjects predicateType : Str) (subject : List (Str × Json)) : Json :=
  .obj [(type_, .str "https://in-toto.io/Statement/v1".toList), (subjects, .arr [.obj subject]),
    (predicateType, .str "p".toList), ("predicate".toList, .obj [("x".toList, .null)])]

/-- a subject -/
def exSubject (name : List (Str × Json)) : List (Str × Json) :=
  name ++ [("digest".toList, .obj [("sha256".toList, .str "00".toList)])]

/-- **C86** (refuted) A document without `_type`, `subject` and `predicateType` is accepted if it has members with the names of
the Python attributes. -/
theorem C86_python_names : ∃ j s, validateStatement j = some s ∧ ¬ ∃ s', StatementIs j s' := by
  refine ⟨exStatement "type_".toList "subjects".toList "predicate_type".toList (exSubject [("name".toList, .null)]),
    ⟨[⟨none, [("sha256".toList, "00".toList)]⟩], "p".toList, some [("x".toList, .null)]⟩, by decide, ?_⟩
  rintro ⟨s', h, _⟩
  have h := (at_obj_iff _ _ _).1 h
  revert h
  decide

/-- **C86** (refuted) A statement is rejected if a subject has no member `name`, although the name is optional. -/
theorem C86_unnamed_subject : ∃ j s, StatementIs j s ∧ validateStatement j = none := by
  refine ⟨exStatement "_type".toList "subject".toList "predicateType".toList (exSubject []),
    ⟨[⟨none, [("sha256".toList, "00".toList)]⟩], "p".toList, some [("x".toList, .null)]⟩, ?_, by decide⟩
  refine ⟨(at_obj_iff _ _ _).2 rfl, ⟨_, (at_obj_iff _ _ _).2 rfl, by simp, .cons ?_ .nil⟩, (at_obj_iff _ _ _).2 rfl,
    (at_obj_iff _ _ _).2 rfl⟩
  refine ⟨.inl ((missing_obj_iff _ _).2 rfl), (at_obj_iff _ _ _).2 rfl, by decide⟩

/-- the hypotheses of `C86_statement_iff_partial` can be met -/
example : validateStatement (exStatement "_type".toList "subject".toList "predicateType".toList (exSubject [("name".toList, .null)])) =
    some ⟨[⟨none, [("sha256".toList, "00".toList)]⟩], "p".toList, some [("x".toList, .null)]⟩ := by decide

/-- **C86** (partial) What is read from bytes: if they are accepted, they are JSON of an object; unless that uses the names of the
Python attributes, it is an in-toto v1 statement, and the meaning the code gives it is the one it has. -/
theorem C86_read_partial (t : JsonText) (contents : Bytes) (s : Statement)
    (h : Statement.ofBytes (.ofText t) contents = .ok s) :
    s.contents = contents ∧ ∃ fields, t.parse contents = some (.obj fields) ∧
      (Dict.get? fields "type_".toList = none → Dict.get? fields "subjects".toList = none →
        Dict.get? fields "predicate_type".toList = none → StatementIs (.obj fields) s.inner) := by
  unfold Statement.ofBytes at h
  cases hp : (StatementCodec.ofText t).parse contents with
  | none => rw [hp] at h; cases h
  | some inner =>
    rw [hp] at h
    cases h
    refine ⟨rfl, ?_⟩
    obtain ⟨j, h1, h2⟩ := Option.bind_eq_some_iff.1 hp
    cases j with
    | obj fields => exact ⟨fields, h1, fun g1 g2 g3 => ((C86_statement_iff_partial _ _ g1 g2 g3).1 h2).1⟩
    | _ => cases h2

/-- an object has one meaning only -/
theorem subjectIs_functional {j : Json} {a b : Subject} (h : SubjectIs j a) (h' : SubjectIs j b) : a = b := by
  obtain ⟨a1, a2⟩ := a
  obtain ⟨b1, b2⟩ := b
  cases j with
  | obj fields =>
    obtain ⟨h1, h2, _⟩ := h
    obtain ⟨h1', h2', _⟩ := h'
    rw [at_obj_iff] at h2 h2'
    rw [optionalAt_obj_iff] at h1 h1'
    rw [h2] at h2'
    have hd := Json.obj.inj (Option.some.inj h2')
    have hinj : Function.Injective fun m : Str × Str => (m.1, Json.str m.2) := by
      rintro ⟨x, y⟩ ⟨x', y'⟩ e
      cases e
      rfl
    have hd := hinj.list_map hd
    have hn : a1 = b1 := by
      cases a1 with
      | none =>
        cases b1 with
        | none => rfl
        | some y => exact absurd h1' (by rcases h1 with h1 | h1 <;> rw [h1] <;> simp)
      | some x =>
        cases b1 with
        | none => exact absurd h1 (by rcases h1' with h1' | h1' <;> rw [h1'] <;> simp)
        | some y =>
          have := h1.symm.trans h1'
          cases this
          rfl
    rw [hn]
    exact congrArg _ hd
  | _ =>
    obtain ⟨_, ⟨_, _, h, _⟩, _⟩ := h
    cases h

/-- **C86** A document is at most one statement: it is not possible that two readers that follow the specification see
different subjects, predicate types or predicates. -/
theorem C86_unambiguous (j : Json) (a b : StatementInner) (h : StatementIs j a) (h' : StatementIs j b) : a = b := by
  obtain ⟨a1, a2, a3⟩ := a
  obtain ⟨b1, b2, b3⟩ := b
  cases j with
  | obj fields =>
    obtain ⟨-, ⟨l, h2, _, h3⟩, h4, h5⟩ := h
    obtain ⟨-, ⟨l', h2', _, h3'⟩, h4', h5'⟩ := h'
    rw [at_obj_iff] at h2 h2' h4 h4'
    rw [optionalAt_obj_iff] at h5 h5'
    rw [h2] at h2'
    cases h2'
    rw [h4] at h4'
    cases h4'
    have hs : a1 = b1 := by
      clear * - h3 h3'
      dsimp only at h3 h3'
      induction h3 generalizing b1 with
      | nil => cases h3'; rfl
      | cons g _ ih =>
        cases h3' with
        | cons g' t' => rw [subjectIs_functional g g', ih _ t']
    have hp : a3 = b3 := by
      cases a3 with
      | none =>
        cases b3 with
        | none => rfl
        | some y => exact absurd h5' (by rcases h5 with h5 | h5 <;> rw [h5] <;> simp)
      | some x =>
        cases b3 with
        | none => exact absurd h5 (by rcases h5' with h5' | h5' <;> rw [h5'] <;> simp)
        | some y =>
          have := h5.symm.trans h5'
          cases this
          rfl
    rw [hs, hp]
  | _ =>
    obtain ⟨⟨_, _, h, _⟩, _⟩ := h
    cases h

/-! ## C34: building -/

theorem dumpStatement_is (s : StatementInner) (hne : s.subjects ≠ []) (hd : ∀ sub ∈ s.subjects, ∀ m ∈ sub.digest, m.1 ∈ subjectDigests) :
    StatementIs (dumpStatement s) s := by
  refine ⟨(at_obj_iff _ _ _).2 rfl, ⟨_, (at_obj_iff _ _ _).2 rfl, ?_, ?_⟩, (at_obj_iff _ _ _).2 rfl, ?_⟩
  · intro h; exact hne (List.map_eq_nil_iff.1 h)
  · clear hne
    generalize s.subjects = l at hd
    induction l with
    | nil => exact .nil
    | cons sub l ih =>
      refine .cons ⟨?_, (at_obj_iff _ _ _).2 rfl, hd sub (List.mem_cons_self ..)⟩
        (ih fun x hx => hd x (List.mem_cons_of_mem _ hx))
      refine (optionalAt_obj_iff _ _ _).2 ?_
      cases sub.name with
      | none => exact .inr rfl
      | some n => rfl
  · refine (optionalAt_obj_iff _ _ _).2 ?_
    cases s.predicate with
    | none => exact .inr rfl
    | some p => rfl

/-- **C86** Reading back a document that was written gives the statement exactly if it has subjects and their digests have
supported names. -/
theorem C86_dump_iff (s : StatementInner) : validateStatement (dumpStatement s) = some s ↔
    s.subjects ≠ [] ∧ ∀ sub ∈ s.subjects, ∀ m ∈ sub.digest, m.1 ∈ subjectDigests := by
  rw [dumpStatement, C86_statement_iff_partial _ _ rfl rfl rfl]
  constructor
  · rintro ⟨⟨_, ⟨l, h1, h2, h3⟩, _⟩, _⟩
    rw [at_obj_iff] at h1
    cases h1
    clear * - h2 h3
    refine ⟨fun h => h2 (by rw [h]; rfl), ?_⟩
    clear h2
    have h4 : ∀ l l' : List Subject, List.Forall₂ SubjectIs (l'.map dumpSubject) l → ∀ sub ∈ l, ∀ m ∈ sub.digest, m.1 ∈ subjectDigests := by
      intro l l' h
      induction l generalizing l' with
      | nil => intro sub hs; cases hs
      | cons x l ih =>
        cases l' with
        | nil => cases h
        | cons y l' =>
          cases h with
          | cons g1 g2 => exact List.forall_mem_cons.2 ⟨g1.2.2, ih l' g2⟩
    exact h4 _ _ h3
  · rintro ⟨h1, h2⟩
    refine ⟨dumpStatement_is s h1 h2, ?_⟩
    intro l hl x hx
    rw [at_obj_iff] at hl
    cases hl
    obtain ⟨sub, _, rfl⟩ := List.mem_map.1 hx
    intro hm
    have := (missing_obj_iff _ _).1 hm
    cases this

/-- the statement is not read back if there is no subject, or if a digest has another name -/
example : validateStatement (dumpStatement ⟨[], "p".toList, none⟩) = none ∧
    validateStatement (dumpStatement ⟨[⟨none, [("md5".toList, "00".toList)]⟩], "p".toList, none⟩) = none := by decide

example : validateStatement (dumpStatement ⟨[⟨some "n".toList, [("sha512".toList, "00".toList)]⟩, ⟨none, []⟩], "p".toList, none⟩) =
    some ⟨[⟨some "n".toList, [("sha512".toList, "00".toList)]⟩, ⟨none, []⟩], "p".toList, none⟩ := by decide

theorem makeSubject_iff (s : Subject) : makeSubject s.name s.digest = some s ↔ ∀ m ∈ s.digest, m.1 ∈ subjectDigests := by
  unfold makeSubject
  show (if ∀ m ∈ s.digest, m.1 ∈ subjectDigests then some s else none) = some s ↔ _
  by_cases h : ∀ m ∈ s.digest, m.1 ∈ subjectDigests
  · rw [if_pos h]; exact ⟨fun _ => h, fun _ => rfl⟩
  · rw [if_neg h]; exact ⟨fun h' => (by cases h'), fun h' => absurd h' h⟩

/-- **C34** Building a statement from subjects that could be constructed succeeds iff there are subjects and a predicate type.  What
is built are the bytes of a document that is an in-toto v1 statement with exactly these subjects, predicate type and predicate; and if
the bytes are JSON of that document, reading them gives the statement back. -/
theorem C34_builder (t : JsonText) (b : StatementBuilder) (hb : ∀ sub ∈ b.subjects, makeSubject sub.name sub.digest = some sub) :
    ((∃ s, b.build (.ofText t) = .ok s) ↔ b.subjects ≠ [] ∧ b.predicateType ≠ none) ∧
    (∀ s, b.build (.ofText t) = .ok s → s.inner.subjects = b.subjects ∧ some s.inner.predicateType = b.predicateType ∧
      s.inner.predicate = b.predicate ∧ ∃ doc, s.contents = t.dump doc ∧ StatementIs doc s.inner ∧
        (t.parse s.contents = some doc → Statement.ofBytes (.ofText t) s.contents = .ok s)) ∧
    (∀ x, b.build (.ofText t) = .error x → x = .error) := by
  unfold StatementBuilder.build
  cases hs : b.subjects with
  | nil =>
    refine ⟨⟨fun ⟨_, h⟩ => (by cases h), fun h => absurd rfl h.1⟩, fun s h => (by cases h), fun x h => (by cases h; rfl)⟩
  | cons a l =>
    cases hp : b.predicateType with
    | none => exact ⟨⟨fun ⟨_, h⟩ => (by cases h), fun h => absurd rfl h.2⟩, fun s h => (by cases h), fun x h => (by cases h; rfl)⟩
    | some pt =>
      refine ⟨⟨fun _ => ⟨by simp, by simp⟩, fun _ => ⟨_, rfl⟩⟩, ?_, fun x h => (by cases h)⟩
      intro s h
      cases h
      rw [← hs]
      have hd : ∀ sub ∈ b.subjects, ∀ m ∈ sub.digest, m.1 ∈ subjectDigests := fun sub h => (makeSubject_iff sub).1 (hb sub h)
      have hne : b.subjects ≠ [] := by rw [hs]; simp
      refine ⟨rfl, rfl, rfl, _, rfl, dumpStatement_is ⟨b.subjects, pt, b.predicate⟩ hne hd, ?_⟩
      intro h
      unfold Statement.ofBytes
      have : (StatementCodec.ofText t).parse (Statement.ofInner (.ofText t) ⟨b.subjects, pt, b.predicate⟩).contents =
          some ⟨b.subjects, pt, b.predicate⟩ := by
        show t.parse _ >>= validateStatement = _
        rw [h]
        exact (C86_dump_iff ⟨b.subjects, pt, b.predicate⟩).2 ⟨hne, hd⟩
      rw [this]
      rfl

/-- a text format with one document -/
example : ∃ (t : JsonText) (b : StatementBuilder) (s : Statement), (∀ sub ∈ b.subjects, makeSubject sub.name sub.digest = some sub) ∧
    b.build (.ofText t) = .ok s ∧ t.parse s.contents = some (dumpStatement s.inner) ∧ Statement.ofBytes (.ofText t) s.contents = .ok s :=
  ⟨⟨fun _ => some (dumpStatement ⟨[⟨some "n".toList, [("sha512".toList, "00".toList)]⟩], "p".toList, none⟩), fun _ => [1]⟩,
   ⟨[⟨some "n".toList, [("sha512".toList, "00".toList)]⟩], some "p".toList, none⟩, _, by decide, rfl, by decide, by decide⟩

/-! ## C87: what `attest` signs -/

/-- the declared type is one of the two, and the document is provenance of that type -/
def AcceptedPredicate (type_ : Str) (doc : Json) : Prop :=
  (type_ = "https://slsa.dev/provenance/v0.2".toList ∧ ProvenanceV0_2 codeDialect doc) ∨
  (type_ = "https://slsa.dev/provenance/v1".toList ∧ ProvenanceV1 codeDialect doc)

theorem acceptedPredicate_of {args : AttestArgs} {pred : Dict Str Json}
    (h : (args.predicateType = slsaV02 ∧ Slsa.predicateV0_2 (.obj pred) = true) ∨
      (args.predicateType = slsaV10 ∧ Slsa.predicateV1_0 (.obj pred) = true)) : AcceptedPredicate args.predicateType (.obj pred) := by
  rcases h with ⟨h, h'⟩ | ⟨h, h'⟩
  · exact .inl ⟨h, (C88_v0_2_iff_partial _).1 h'⟩
  · exact .inr ⟨h, (C88_v1_iff_partial _).1 h'⟩

/-- **C87** If `attest` succeeds and its outputs are at different places, which are no inputs, then the output of each input holds a
signed in-toto v1 statement: the bytes of a document with one subject, which has the input's name and the SHA-256 digest of its
content, with the declared predicate type and the document that is in the predicate file, which is provenance of that type.  If
the bytes are read as that document, then the statement that is read matches the digest of the input, and matches no
other digest. -/
theorem C87_attested_document (libs : SignLibs) (t : JsonText) (ht : libs.codec = .ofText t) (o : SignOracle) (trust : TrustArgs)
    (ident : IdentityArgs) (args : AttestArgs) (s : SignState)
    (ha : ∀ f ∈ args.files, ∀ g ∈ args.files, f ≠ g → ∀ p q, AttestBundlePath args f p → AttestBundlePath args g q →
      libs.disk.resolve p ≠ libs.disk.resolve q)
    (hi : args.overwrite = false ∨
      ∀ f ∈ args.files, ∀ g ∈ args.files, ∀ p, AttestBundlePath args f p → libs.disk.resolve p ≠ libs.disk.resolve g)
    (h : (attestMain libs o trust ident args s).1 = some (.ok ())) :
    ∃ pred predicate text, s.disk (libs.disk.resolve args.predicate) = some (.file predicate) ∧
      utf8Decode predicate = some text ∧ libs.loads text = some (.obj pred) ∧ AcceptedPredicate args.predicateType (.obj pred) ∧
      ∀ f ∈ args.files, ∃ content b p, s.disk (libs.disk.resolve f) = some (.file content) ∧ AttestBundlePath args f p ∧
        HoldsBundle libs.disk libs.toJson (attestMain libs o trust ident args s).2.disk b p ∧
        ∃ doc payload sig, doc = attestation f.name (hexEncode (libs.env.crypto.sha256 content)) args.predicateType pred ∧
          payload = t.dump doc ∧ b.inner.dsseEnvelope = some ⟨payload, "application/vnd.in-toto+json".toList, [sig]⟩ ∧
          (t.parse payload = some doc → ∃ st, Statement.ofBytes libs.codec payload = .ok st ∧
            ∀ d : Hashed, st.matchesDigest d = .ok true ↔ d.algorithm = .sha2_256 ∧ d.digest = libs.env.crypto.sha256 content) := by
  obtain ⟨_, cert, pred, predicate, _, _, h1, ⟨text, h2, h3⟩, h4⟩ :=
    C46_own_attestation_partial libs o trust ident args s ha hi h
  refine ⟨pred, predicate, text, h1, h2, h3, ?_, ?_⟩
  · unfold attestMain at h
    cases hr : readPredicate libs.disk libs.loads args s.disk with
    | error e => rw [hr] at h; cases h
    | ok pred' =>
      obtain ⟨content', text', g1, _, g2, g3, g4⟩ := (readPredicate_ok_iff _ _ _ _ _).1 hr
      rw [h1] at g1; cases g1
      rw [h2] at g2; cases g2
      rw [h3] at g3; cases g3
      exact acceptedPredicate_of g4
  · intro f hf
    obtain ⟨content, b, p, g1, g2, g3, g4⟩ := h4 f hf
    obtain ⟨_, nonce, _, payload, k1, k2⟩ := g2
    rw [ht] at k1
    subst k1
    refine ⟨content, b, p, g1, g3, g4, _, _, _, rfl, rfl, k2, ?_⟩
    intro hp
    rw [ht]
    set inner : StatementInner :=
      ⟨[⟨some f.name, [("sha256".toList, hexEncode (libs.env.crypto.sha256 content))]⟩], args.predicateType, some pred⟩ with hinner
    have hv : validateStatement (dumpStatement inner) = some inner :=
      (C86_dump_iff inner).2 ⟨by simp [hinner], by
        intro sub hs m hm
        cases List.mem_singleton.1 hs
        cases List.mem_singleton.1 hm
        show "sha256".toList ∈ subjectDigests
        decide⟩
    refine ⟨⟨t.dump (dumpStatement inner), inner⟩, ?_, ?_⟩
    · unfold Statement.ofBytes
      have : (StatementCodec.ofText t).parse (t.dump (dumpStatement inner)) = some inner := by
        show t.parse _ >>= validateStatement = _
        rw [show t.parse (t.dump (dumpStatement inner)) = some (dumpStatement inner) from hp]
        exact hv
      show (match (StatementCodec.ofText t).parse (t.dump (dumpStatement inner)) with
        | none => _ | some _ => _) = _
      rw [this]
      rfl
    · intro d
      rw [C53_matches_iff]
      refine and_congr Iff.rfl ?_
      constructor
      · rintro ⟨sub, hs, hd⟩
        cases List.mem_singleton.1 hs
        have : hexEncode (libs.env.crypto.sha256 content) = hexEncode d.digest := Option.some.inj hd
        exact (hexEncode_injective this).symm
      · intro hd
        exact ⟨_, List.mem_singleton.2 rfl, by rw [hd]; rfl⟩

/-- the two documents of the example -/
def exDocument (name : String) (x : UInt8) : Json :=
  attestation name.toList (hexEncode (List.replicate 32 x)) slsaV10 (match exPredicate with | .obj p => p | _ => [])

/-- a text format for the two documents of the example -/
def exText : JsonText :=
  ⟨fun b => if b = [49] then some (exDocument "a" 1) else some (exDocument "b" 2),
   fun j => if j = exDocument "a" 1 then [49] else [50]⟩

/-- the libraries with this format -/
def exTextLibs : SignLibs := { exSignLibs with codec := .ofText exText }

/-- the hypotheses of `C87_attested_document` can be met, and the documents are read back -/
example : (attestMain exTextLibs (exOracle exTurns) exTrust exIdent exAttestArgs exAttestState).1 = some (.ok ()) ∧
    (∀ f ∈ exAttestArgs.files, ∀ g ∈ exAttestArgs.files, f ≠ g → ∀ p q, AttestBundlePath exAttestArgs f p →
      AttestBundlePath exAttestArgs g q → exTextLibs.disk.resolve p ≠ exTextLibs.disk.resolve q) ∧
    exText.parse (exText.dump (exDocument "a" 1)) = some (exDocument "a" 1) ∧
    exText.parse (exText.dump (exDocument "b" 2)) = some (exDocument "b" 2) := by
  refine ⟨by decide, ?_, by decide, by decide⟩
  intro f hf g hg hfg p q hp hq
  rw [← (attestBundlePath_iff _ _ _).2 hp, ← (attestBundlePath_iff _ _ _).2 hq]
  have hf : f = exPath "a" ∨ f = exPath "b" := by simpa [exAttestArgs] using hf
  have hg : g = exPath "a" ∨ g = exPath "b" := by simpa [exAttestArgs] using hg
  rcases hf with rfl | rfl <;> rcases hg with rfl | rfl
  · exact absurd rfl hfg
  · decide
  · decide
  · exact absurd rfl hfg

/-- **C87** If the predicate file does not hold provenance of the declared type, `attest` fails before anything else happens: nothing
is signed, requested or written. -/
theorem C87_invalid_predicate (libs : SignLibs) (o : SignOracle) (trust : TrustArgs) (ident : IdentityArgs) (args : AttestArgs)
    (s : SignState) (h : ∀ predicate text pred, s.disk (libs.disk.resolve args.predicate) = some (.file predicate) →
      utf8Decode predicate = some text → libs.loads text = some (.obj pred) → ¬ AcceptedPredicate args.predicateType (.obj pred)) :
    ∃ e, attestMain libs o trust ident args s = (some (.error e), s) := by
  unfold attestMain
  cases hr : readPredicate libs.disk libs.loads args s.disk with
  | error e => exact ⟨e, rfl⟩
  | ok pred =>
    obtain ⟨content', text', g1, _, g2, g3, g4⟩ := (readPredicate_ok_iff _ _ _ _ _).1 hr
    exact absurd (acceptedPredicate_of g4) (h _ _ _ g1 g2 g3)

/-- a predicate that is no object -/
example : ∃ e, attestMain { exSignLibs with loads := fun _ => some (.arr []) } (exOracle exTurns) exTrust exIdent exAttestArgs exAttestState =
    (some (.error e), exAttestState) :=
  C87_invalid_predicate _ _ _ _ _ _ fun _ _ _ _ _ h => (by cases h)

end Sigstore.Props
