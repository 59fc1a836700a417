import Verif.Lemmas.JsonComplete
import Verif.Props.Statement

/-!
# C136: statements are read back from their text
-/

namespace Sigstore.Props

open Sigstore.Spec Sigstore.Dsse Sigstore.JsonIO Sigstore.Signing Sigstore.Cli

/-- **C136** What is read is JSON, and all JSON is read: bytes are read as a document iff they are UTF-8 of a text of that document as
RFC 8259 has it, with at most `limit` arrays and objects within each other, and with blanks at most around it. -/
theorem C136_read_iff (fl : Floats) (limit : Nat) (b : Bytes) (j : Json) : (text fl limit).parse b = some j ↔
    ∃ before t after, b = utf8 (before ++ (t ++ after)) ∧ Blanks before ∧ ValueText fl limit j t ∧ Blanks after := by
  constructor
  · intro h
    exact (parse_is h).1
  · rintro ⟨a, t, z, rfl, h1, h2, h3⟩
    exact parse_of h1 h2 h3

/-- **C136** A text is of one document only. -/
theorem C136_one_document (fl : Floats) (d d' : Nat) (t : Str) (j j' : Json) (h : ValueText fl d j t) (h' : ValueText fl d' j' t) :
    j = j' := by
  have none : Blanks [] := fun c hc => (by cases hc)
  have k := parse_mono (Nat.le_add_right d d') (parse_of none h none)
  have k' := parse_mono (Nat.le_add_left d' d) (parse_of none h' none)
  rw [k] at k'
  exact Option.some.inj k'

/-- **C136** What is written is JSON: UTF-8 of a text of that document as RFC 8259 has it, with blanks at most around it. -/
theorem C136_written (fl : Floats) (limit : Nat) (j : Json) (hk : TextKept fl j) : ∃ d before t after,
    (text fl limit).dump j = utf8 (before ++ (t ++ after)) ∧ Blanks before ∧ ValueText fl d j t ∧ Blanks after := by
  obtain ⟨e, he⟩ := exists_depth j
  exact ⟨e, (parse_is (parse_write fl e j hk he)).1⟩

/-- **C136** A document is read back from what was written of it iff it is not deeper than the limit, and otherwise nothing is read:
never another document. -/
theorem C136_document_iff (fl : Floats) (limit : Nat) (j : Json) (hk : TextKept fl j) :
    ((text fl limit).parse ((text fl limit).dump j) = some j ↔ DepthLe limit j) ∧
    ((text fl limit).parse ((text fl limit).dump j) = none ↔ ¬ DepthLe limit j) := by
  obtain ⟨h1, h2⟩ := parse_write_iff limit hk
  have e : (text fl limit).parse ((text fl limit).dump j) = parse fl limit (utf8 (write fl j)) := rfl
  rw [e]
  by_cases hd : DepthLe limit j
  · rw [h1 hd]
    exact ⟨⟨fun _ => hd, fun _ => rfl⟩, fun h => (by cases h), fun h => absurd hd h⟩
  · rw [h2 hd]
    exact ⟨⟨fun h => (by cases h), fun h => absurd h hd⟩, fun _ => hd, fun _ => rfl⟩

/-! ## Statements -/

theorem partOf_arr {l : List Json} {y : Json} (h : PartOf (.arr l) y) : y = .arr l ∨ ∃ x ∈ l, PartOf x y := by
  cases h with
  | self => exact .inl rfl
  | item _ x _ hx h => exact .inr ⟨x, hx, h⟩

theorem partOf_obj {l : List (Str × Json)} {y : Json} (h : PartOf (.obj l) y) : y = .obj l ∨ ∃ m ∈ l, PartOf m.2 y := by
  cases h with
  | self => exact .inl rfl
  | member _ m _ hm h => exact .inr ⟨m, hm, h⟩

theorem kept_str (fl : Floats) (s : Str) : TextKept fl (.str s) :=
  ⟨fun q h => (by cases h), fun l h => (by cases h)⟩

theorem kept_null (fl : Floats) : TextKept fl .null := ⟨fun q h => (by cases h), fun l h => (by cases h)⟩

theorem kept_arr {fl : Floats} {l : List Json} (h : ∀ x ∈ l, TextKept fl x) : TextKept fl (.arr l) := by
  refine ⟨fun q hq => ?_, fun o ho => ?_⟩
  · rcases partOf_arr hq with h' | ⟨x, hx, h'⟩
    · cases h'
    · exact (h x hx).1 q h'
  · rcases partOf_arr ho with h' | ⟨x, hx, h'⟩
    · cases h'
    · exact (h x hx).2 o h'

theorem kept_obj {fl : Floats} {l : List (Str × Json)} (hn : (l.map Prod.fst).Nodup) (h : ∀ m ∈ l, TextKept fl m.2) :
    TextKept fl (.obj l) := by
  refine ⟨fun q hq => ?_, fun o ho => ?_⟩
  · rcases partOf_obj hq with h' | ⟨x, hx, h'⟩
    · cases h'
    · exact (h x hx).1 q h'
  · rcases partOf_obj ho with h' | ⟨x, hx, h'⟩
    · cases h'; exact hn
    · exact (h x hx).2 o h'

/-- names in digests and in the predicate differ, as in Python dictionaries, and the numbers of the predicate are kept -/
def StatementKept (fl : Floats) (s : StatementInner) : Prop :=
  (∀ sub ∈ s.subjects, (sub.digest.map Prod.fst).Nodup) ∧ ∀ p, s.predicate = some p → TextKept fl (.obj p)

theorem kept_digest {fl : Floats} {d : Dict Str Str} (h : (d.map Prod.fst).Nodup) :
    TextKept fl (.obj (d.map fun m => (m.1, .str m.2))) := by
  refine kept_obj ?_ ?_
  · rw [List.map_map]
    exact h
  · intro m hm
    obtain ⟨x, _, rfl⟩ := List.mem_map.1 hm
    exact kept_str fl _

theorem kept_statement {fl : Floats} {s : StatementInner} (h : StatementKept fl s) : TextKept fl (dumpStatement s) := by
  unfold dumpStatement
  refine kept_obj (by show List.Nodup ["_type".toList, "subject".toList, "predicateType".toList, "predicate".toList]; decide) ?_
  refine List.forall_mem_cons.2 ⟨kept_str fl _, List.forall_mem_cons.2 ⟨?_, List.forall_mem_cons.2 ⟨kept_str fl _,
    List.forall_mem_cons.2 ⟨?_, fun m hm => (by cases hm)⟩⟩⟩⟩
  · refine kept_arr fun x hx => ?_
    obtain ⟨sub, hs, rfl⟩ := List.mem_map.1 hx
    unfold dumpSubject
    refine kept_obj (by show List.Nodup ["name".toList, "digest".toList]; decide) ?_
    refine List.forall_mem_cons.2 ⟨?_, List.forall_mem_cons.2 ⟨kept_digest (h.1 sub hs), fun m hm => (by cases hm)⟩⟩
    cases sub.name with
    | none => exact kept_null fl
    | some n => exact kept_str fl n
  · cases hp : s.predicate with
    | none => exact kept_null fl
    | some p => exact h.2 p hp

/-- the depth of a statement: four, or one more than that of its predicate -/
theorem depth_statement {d : Nat} {s : StatementInner} (hs : s.subjects ≠ []) :
    DepthLe d (dumpStatement s) ↔ 4 ≤ d ∧ ∀ p, s.predicate = some p → DepthLe (d - 1) (.obj p) := by
  constructor
  · intro h
    obtain ⟨h0, hm⟩ := depth_obj h
    have h1 := hm ("subject".toList, .arr (s.subjects.map dumpSubject)) (by simp)
    obtain ⟨h2, h3⟩ := depth_arr h1
    obtain ⟨sub, l, e⟩ := List.exists_cons_of_ne_nil hs
    have h4 := h3 (dumpSubject sub) (by rw [e]; exact List.mem_cons_self)
    obtain ⟨h5, h6⟩ := depth_obj h4
    have h7 := h6 ("digest".toList, .obj (sub.digest.map fun m => (m.1, .str m.2))) (by simp)
    have h8 := (depth_obj h7).1
    refine ⟨by omega, fun p hp => ?_⟩
    have := hm ("predicate".toList, dumpOptional .obj s.predicate) (by simp)
    rw [hp] at this
    exact this
  · rintro ⟨h4, hp⟩
    obtain ⟨e, rfl⟩ : ∃ e, d = e + 4 := ⟨d - 4, by omega⟩
    refine .obj _ _ (List.forall_mem_cons.2 ⟨.str _ _, List.forall_mem_cons.2 ⟨?_, List.forall_mem_cons.2 ⟨.str _ _,
      List.forall_mem_cons.2 ⟨?_, fun m hm => (by cases hm)⟩⟩⟩⟩)
    · refine .arr _ _ fun x hx => ?_
      obtain ⟨sub, _, rfl⟩ := List.mem_map.1 hx
      refine .obj _ _ (List.forall_mem_cons.2 ⟨?_, List.forall_mem_cons.2 ⟨?_, fun m hm => (by cases hm)⟩⟩)
      · cases sub.name with
        | none => exact .null _
        | some n => exact .str _ _
      · refine .obj _ _ fun m hm => ?_
        obtain ⟨y, _, rfl⟩ := List.mem_map.1 hm
        exact .str _ _
    · cases hq : s.predicate with
      | none => exact .null _
      | some p => exact hp p hq

/-- **C136** A statement that was built from subjects that could be constructed is read back from its bytes as the same statement iff at
most `limit` objects and arrays are within each other; otherwise reading fails with `Error`.  Missing for the full claim: deeper
statements, for which it is false (`C136_too_deep`). -/
theorem C136_read_back_partial (fl : Floats) (limit : Nat) (hl : 4 ≤ limit) (b : StatementBuilder) (s : Statement)
    (hb : ∀ sub ∈ b.subjects, makeSubject sub.name sub.digest = some sub) (h : b.build (.ofText (text fl limit)) = .ok s)
    (hk : StatementKept fl s.inner) :
    (Statement.ofBytes (.ofText (text fl limit)) s.contents = .ok s ↔
      ∀ p, b.predicate = some p → DepthLe (limit - 1) (.obj p)) ∧
    (¬ (∀ p, b.predicate = some p → DepthLe (limit - 1) (.obj p)) →
      Statement.ofBytes (.ofText (text fl limit)) s.contents = .error .error) := by
  obtain ⟨hiff, hs, _⟩ := C34_builder (text fl limit) b hb
  obtain ⟨e1, _, e3, _, _, _, _⟩ := hs s h
  have hne := (hiff.1 ⟨s, h⟩).1
  have hd := depth_statement (d := limit) (s := s.inner) (by rw [e1]; exact hne)
  rw [e3] at hd
  have hc : s.contents = (text fl limit).dump (dumpStatement s.inner) := by
    unfold StatementBuilder.build at h
    repeat' split at h
    all_goals first | (cases h; rfl) | cases h
  have hdoc := C136_document_iff fl limit (dumpStatement s.inner) (kept_statement hk)
  have hgood : (∀ sub ∈ s.inner.subjects, ∀ m ∈ sub.digest, m.1 ∈ subjectDigests) := by
    rw [e1]
    exact fun sub g => (makeSubject_iff sub).1 (hb sub g)
  have hval := (C86_dump_iff s.inner).2 ⟨by rw [e1]; exact hne, hgood⟩
  have hpos : DepthLe limit (dumpStatement s.inner) → Statement.ofBytes (.ofText (text fl limit)) s.contents = .ok s := by
    intro g
    have hp : (StatementCodec.ofText (text fl limit)).parse s.contents = some s.inner := by
      show (text fl limit).parse s.contents >>= validateStatement = _
      rw [hc, hdoc.1.2 g]
      exact hval
    unfold Statement.ofBytes
    rw [hp]
  have hneg : ¬ DepthLe limit (dumpStatement s.inner) → Statement.ofBytes (.ofText (text fl limit)) s.contents = .error .error := by
    intro g
    have hp : (StatementCodec.ofText (text fl limit)).parse s.contents = none := by
      show (text fl limit).parse s.contents >>= validateStatement = _
      rw [hc, hdoc.2.2 g]
      rfl
    unfold Statement.ofBytes
    rw [hp]
  refine ⟨⟨fun g => ?_, fun g => hpos (hd.2 ⟨hl, g⟩)⟩, fun g => hneg fun g' => g (hd.1 g').2⟩
  by_contra g'
  rw [hneg fun k => g' (hd.1 k).2] at g
  cases g

/-- objects within each other -/
def nestedPredicate : Nat → Dict Str Json
  | 0 => []
  | n + 1 => [("a".toList, .obj (nestedPredicate n))]

theorem kept_nested (fl : Floats) (n : Nat) : TextKept fl (.obj (nestedPredicate n)) := by
  induction n with
  | zero => exact kept_obj List.nodup_nil fun m hm => (by cases hm)
  | succ n ih =>
    exact kept_obj (by show List.Nodup ["a".toList]; decide) (List.forall_mem_cons.2 ⟨ih, fun m hm => (by cases hm)⟩)

theorem depth_nested (n d : Nat) : DepthLe d (.obj (nestedPredicate n)) ↔ n < d := by
  induction n generalizing d with
  | zero =>
    constructor
    · intro h; have := (depth_obj h).1; omega
    · intro h
      obtain ⟨e, rfl⟩ : ∃ e, d = e + 1 := ⟨d - 1, by omega⟩
      exact .obj _ _ fun m hm => (by cases hm)
  | succ n ih =>
    constructor
    · intro h
      obtain ⟨h0, h1⟩ := depth_obj h
      have := (ih (d - 1)).1 (h1 _ List.mem_cons_self)
      omega
    · intro h
      obtain ⟨e, rfl⟩ : ∃ e, d = e + 1 := ⟨d - 1, by omega⟩
      exact .obj _ _ (List.forall_mem_cons.2 ⟨(ih e).2 (by omega), fun m hm => (by cases hm)⟩)

/-- a builder with such a predicate -/
def nestedBuilder (n : Nat) : StatementBuilder :=
  ⟨[⟨some "n".toList, [("sha256".toList, "00".toList)]⟩], some "p".toList, some (nestedPredicate n)⟩

/-- **C136** (refuted) Whatever the limit of the reader: there is a predicate that is not deeper than the limit, so that it can be read,
and that a statement can be built with, which is not read back. -/
theorem C136_too_deep (fl : Floats) (limit : Nat) (hl : 4 ≤ limit) :
    ∃ (b : StatementBuilder) (s : Statement) (p : Dict Str Json), b.predicate = some p ∧ DepthLe limit (.obj p) ∧
      (∀ sub ∈ b.subjects, makeSubject sub.name sub.digest = some sub) ∧ b.build (.ofText (text fl limit)) = .ok s ∧
      Statement.ofBytes (.ofText (text fl limit)) s.contents = .error .error := by
  have hb : ∀ sub ∈ (nestedBuilder (limit - 1)).subjects, makeSubject sub.name sub.digest = some sub := by
    intro sub hs
    cases List.mem_singleton.1 hs
    decide
  obtain ⟨s, hs⟩ := (C34_builder (text fl limit) (nestedBuilder (limit - 1)) hb).1.2 ⟨by simp [nestedBuilder], by simp [nestedBuilder]⟩
  obtain ⟨e1, _, e3, _⟩ := (C34_builder (text fl limit) (nestedBuilder (limit - 1)) hb).2.1 s hs
  refine ⟨nestedBuilder (limit - 1), s, nestedPredicate (limit - 1), rfl, (depth_nested _ _).2 (by omega), hb, hs, ?_⟩
  refine (C136_read_back_partial fl limit hl _ s hb hs ⟨?_, ?_⟩).2 ?_
  · rw [e1]
    intro sub h
    cases List.mem_singleton.1 h
    show List.Nodup ["sha256".toList]
    decide
  · rw [e3]
    intro p hp
    cases hp
    exact kept_nested fl _
  · intro g
    have := (depth_nested _ _).1 (g _ rfl)
    omega

/-- **C136** What `attest` signs is read back: with this text format, if `attest` succeeds and its outputs are at different places, which
are no inputs, the statement in the output of each input is read, and matches the digest of that input and no other, if the predicate is
less deep than the limit, names in its objects differ and its numbers are kept. -/
theorem C136_attested (libs : SignLibs) (fl : Floats) (limit : Nat) (hl : 4 ≤ limit) (ht : libs.codec = .ofText (text fl limit))
    (o : SignOracle) (trust : TrustArgs) (ident : IdentityArgs) (args : AttestArgs) (s : SignState)
    (ha : ∀ f ∈ args.files, ∀ g ∈ args.files, f ≠ g → ∀ p q, AttestBundlePath args f p → AttestBundlePath args g q →
      libs.disk.resolve p ≠ libs.disk.resolve q)
    (hi : args.overwrite = false ∨
      ∀ f ∈ args.files, ∀ g ∈ args.files, ∀ p, AttestBundlePath args f p → libs.disk.resolve p ≠ libs.disk.resolve g)
    (h : (attestMain libs o trust ident args s).1 = some (.ok ()))
    (hp : ∀ predicate t pred, s.disk (libs.disk.resolve args.predicate) = some (.file predicate) → utf8Decode predicate = some t →
      libs.loads t = some (.obj pred) → TextKept fl (.obj pred) ∧ DepthLe (limit - 1) (.obj pred)) :
    ∀ f ∈ args.files, ∃ content b p payload sig st, s.disk (libs.disk.resolve f) = some (.file content) ∧ AttestBundlePath args f p ∧
      HoldsBundle libs.disk libs.toJson (attestMain libs o trust ident args s).2.disk b p ∧
      b.inner.dsseEnvelope = some ⟨payload, "application/vnd.in-toto+json".toList, [sig]⟩ ∧
      Statement.ofBytes libs.codec payload = .ok st ∧
      ∀ d : Hashed, st.matchesDigest d = .ok true ↔ d.algorithm = .sha2_256 ∧ d.digest = libs.env.crypto.sha256 content := by
  obtain ⟨pred, predicate, t, h1, h2, h3, _, h5⟩ := C87_attested_document libs (text fl limit) ht o trust ident args s ha hi h
  obtain ⟨k1, k2⟩ := hp predicate t pred h1 h2 h3
  intro f hf
  obtain ⟨content, b, p, g1, g2, g3, doc, payload, sig, g4, g5, g6, g7⟩ := h5 f hf
  have hdoc : doc = dumpStatement ⟨[⟨some f.name, [("sha256".toList, hexEncode (libs.env.crypto.sha256 content))]⟩],
      args.predicateType, some pred⟩ := g4
  have hread : (text fl limit).parse payload = some doc := by
    rw [g5, hdoc]
    refine (C136_document_iff fl limit _ (kept_statement ⟨?_, ?_⟩)).1.2 ((depth_statement (by simp)).2 ⟨hl, ?_⟩)
    · intro sub hs
      cases List.mem_singleton.1 hs
      show List.Nodup ["sha256".toList]
      decide
    · intro p hp
      cases hp
      exact k1
    · intro p hp
      cases hp
      exact k2
  obtain ⟨st, m1, m2⟩ := g7 hread
  exact ⟨content, b, p, payload, sig, st, g1, g2, g3, g6, m1, m2⟩

/-! ## Documents that were read -/

/-- what is read as a number that is no integer is written so that it is read again -/
def ReadKept (fl : Floats) : Prop := ∀ s q, fl.read s = some q → q.den = 1 ∨ FloatKept fl q

theorem kept_num {fl : Floats} {q : ℚ} (h : q.den = 1 ∨ FloatKept fl q) : TextKept fl (.num q) :=
  ⟨fun q' h' => (by cases h'; exact h), fun l h' => (by cases h')⟩

theorem kept_bool (fl : Floats) (b : Bool) : TextKept fl (.bool b) := ⟨fun q h => (by cases h), fun l h => (by cases h)⟩

theorem kept_items_text {fl : Floats} {d : Nat} (ih : ∀ j t, ValueText fl d j t → TextKept fl j) (l : List Json) :
    ∀ t, ItemsText fl d l t → ∀ x ∈ l, TextKept fl x := by
  induction l with
  | nil => intro t h; cases h
  | cons y l il =>
    intro t h
    cases h with
    | one _ _ _ _ _ _ h2 => exact List.forall_mem_cons.2 ⟨ih _ _ h2, fun x hx => (by cases hx)⟩
    | cons _ _ _ _ _ _ _ _ h2 _ h4 => exact List.forall_mem_cons.2 ⟨ih _ _ h2, il _ h4⟩

theorem kept_members_text {fl : Floats} {d : Nat} (ih : ∀ j t, ValueText fl d j t → TextKept fl j) (l : List (Str × Json)) :
    ∀ t, MembersText fl d l t → ∀ m ∈ l, TextKept fl m.2 := by
  induction l with
  | nil => intro t h; cases h
  | cons y l il =>
    intro t h
    cases h with
    | one _ _ _ _ _ _ _ _ _ _ _ _ _ h5 => exact List.forall_mem_cons.2 ⟨ih _ _ h5, fun x hx => (by cases hx)⟩
    | cons _ _ _ _ _ _ _ _ _ _ _ _ _ _ _ h5 _ h7 => exact List.forall_mem_cons.2 ⟨ih _ _ h5, il _ h7⟩

theorem kept_text {fl : Floats} (hf : ReadKept fl) : ∀ d j t, ValueText fl d j t → TextKept fl j := by
  have num : ∀ q s, NumText fl q s → TextKept fl (.num q) := by
    rintro q s (⟨z, rfl, _⟩ | ⟨_, _, _, h⟩)
    · exact kept_num (.inl rfl)
    · exact kept_num (hf s q h)
  intro d
  induction d with
  | zero =>
    intro j t h
    cases h with
    | null => exact kept_null fl
    | true => exact kept_bool fl _
    | false => exact kept_bool fl _
    | num _ _ _ h => exact num _ _ h
    | str => exact kept_str fl _
  | succ d ih =>
    intro j t h
    cases h with
    | null => exact kept_null fl
    | true => exact kept_bool fl _
    | false => exact kept_bool fl _
    | num _ _ _ h => exact num _ _ h
    | str => exact kept_str fl _
    | noItems => exact kept_arr fun x hx => (by cases hx)
    | items _ l t h => exact kept_arr (kept_items_text ih l t h)
    | noMembers => exact kept_obj List.nodup_nil fun x hx => (by cases hx)
    | members _ l m t h hl =>
      refine kept_obj (lastCounts_nodup hl) fun x hx => ?_
      obtain ⟨a, b, e, _⟩ := (hl.2 x.1 x.2).1 hx
      exact kept_members_text ih l t h x (by rw [e]; simp)

/-- **C136** A document that was read can be written and read again: it is read back as the same document, if it is within the limit. -/
theorem C136_read_again (fl : Floats) (hf : ReadKept fl) (limit : Nat) (b : Bytes) (j : Json) (h : (text fl limit).parse b = some j) :
    (text fl limit).parse ((text fl limit).dump j) = some j := by
  obtain ⟨⟨_, t, _, _, _, h1, _⟩, h2⟩ := parse_is h
  exact (C136_document_iff fl limit j (kept_text hf _ _ _ h1)).1.2 h2

/-- **C136** From file to verified statement: if the predicate file is read with the same format (with any limit; `json.load` does so for
files without `NaN`, infinities and lone surrogates), and the document in it
is less deep than the limit of the reader of statements, then what `attest` signs for each input is read back, and matches the digest
of that input and no other. -/
theorem C136_attested_file (libs : SignLibs) (fl : Floats) (hf : ReadKept fl) (limit limit' : Nat) (hl : 4 ≤ limit)
    (ht : libs.codec = .ofText (text fl limit)) (hloads : ∀ t, libs.loads t = (text fl limit').parse (utf8 t))
    (o : SignOracle) (trust : TrustArgs) (ident : IdentityArgs) (args : AttestArgs) (s : SignState)
    (ha : ∀ f ∈ args.files, ∀ g ∈ args.files, f ≠ g → ∀ p q, AttestBundlePath args f p → AttestBundlePath args g q →
      libs.disk.resolve p ≠ libs.disk.resolve q)
    (hi : args.overwrite = false ∨
      ∀ f ∈ args.files, ∀ g ∈ args.files, ∀ p, AttestBundlePath args f p → libs.disk.resolve p ≠ libs.disk.resolve g)
    (h : (attestMain libs o trust ident args s).1 = some (.ok ()))
    (hd : ∀ predicate j, s.disk (libs.disk.resolve args.predicate) = some (.file predicate) →
      (text fl limit').parse predicate = some j → DepthLe (limit - 1) j) :
    ∀ f ∈ args.files, ∃ content b p payload sig st, s.disk (libs.disk.resolve f) = some (.file content) ∧ AttestBundlePath args f p ∧
      HoldsBundle libs.disk libs.toJson (attestMain libs o trust ident args s).2.disk b p ∧
      b.inner.dsseEnvelope = some ⟨payload, "application/vnd.in-toto+json".toList, [sig]⟩ ∧
      Statement.ofBytes libs.codec payload = .ok st ∧
      ∀ d : Hashed, st.matchesDigest d = .ok true ↔ d.algorithm = .sha2_256 ∧ d.digest = libs.env.crypto.sha256 content := by
  refine C136_attested libs fl limit hl ht o trust ident args s ha hi h fun predicate t pred h1 h2 h3 => ?_
  rw [hloads, ← (utf8Decode_eq_some_iff predicate t).1 h2] at h3
  obtain ⟨⟨_, u, _, _, _, k1, _⟩, _⟩ := parse_is h3
  exact ⟨kept_text hf _ _ _ k1, hd predicate _ h1 h3⟩

end Sigstore.Props
