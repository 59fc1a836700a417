import Verif.Spec.InToto
import Verif.Props.Http
import Verif.Model.Slsa

/-!
# Properties of the SLSA models: C88
-/

namespace Sigstore.Props

open Sigstore.Spec Sigstore.Slsa Sigstore.Dsse

theorem at_one_iff (j : Json) (k : Str) (v : Json) : At j [k] v ↔ ∃ fields, j = .obj fields ∧ Dict.get? fields k = some v := by
  constructor
  · rintro ⟨fields, x, rfl, h, rfl⟩; exact ⟨fields, rfl, h⟩
  · rintro ⟨fields, rfl, h⟩; exact ⟨fields, v, rfl, h, rfl⟩

theorem at_obj_iff (fields : List (Str × Json)) (k : Str) (v : Json) : At (.obj fields) [k] v ↔ Dict.get? fields k = some v := by
  rw [at_one_iff]
  constructor
  · rintro ⟨f, h, h'⟩; cases h; exact h'
  · intro h; exact ⟨fields, rfl, h⟩

/-- what a model accepts -/
theorem model_iff (fields : List Field) (j : Json) :
    model fields j = true ↔ Only j (fields.map Field.alias_) ∧ ∀ f ∈ fields,
      if f.required then Has j f.alias_ (fun v => f.accepts v = true) else ∀ v, At j [f.alias_] v → f.accepts v = true := by
  cases j with
  | obj members =>
    unfold model Only Has
    simp only [Bool.and_eq_true, List.all_eq_true, List.any_eq_true, decide_eq_true_eq, at_obj_iff]
    refine and_congr ?_ (forall₂_congr fun f _ => ?_)
    · constructor
      · intro h
        refine ⟨members, rfl, fun m hm => ?_⟩
        obtain ⟨f, hf, he⟩ := h m hm
        exact List.mem_map.2 ⟨f, hf, he⟩
      · rintro ⟨fields', he, h⟩ m hm
        cases he
        obtain ⟨f, hf, he⟩ := List.mem_map.1 (h m hm)
        exact ⟨f, hf, he⟩
    · cases hg : Dict.get? members f.alias_ <;> cases f.required <;> simp
  | _ =>
    unfold model Only
    refine ⟨fun h => (by cases h), ?_⟩
    rintro ⟨⟨_, h, _⟩, _⟩
    cases h

/-- a required field -/
theorem req_iff (j : Json) (k : Str) (a : Json → Bool) (P : Json → Prop) (h : ∀ v, a v = true ↔ P v) :
    (if (req k a).required then Has j (req k a).alias_ (fun v => (req k a).accepts v = true)
      else ∀ v, At j [(req k a).alias_] v → (req k a).accepts v = true) ↔ Has j k P := by
  unfold req Has
  simp only [if_true, h]

/-- an optional field -/
theorem opt_iff (j : Json) (k : Str) (a : Json → Bool) (P : Json → Prop) (h : ∀ v, a v = true ↔ P v) :
    (if (opt k a).required then Has j (opt k a).alias_ (fun v => (opt k a).accepts v = true)
      else ∀ v, At j [(opt k a).alias_] v → (opt k a).accepts v = true) ↔ May j k P := by
  unfold opt May
  simp only [Bool.false_eq_true, if_false, Bool.or_eq_true, beq_iff_eq, h]

theorem str_iff (j : Json) : str j = true ↔ IsText j := by
  cases j <;> simp [str, strictStr, IsText]

theorem anyDict_iff (j : Json) : anyDict j = true ↔ IsObject j := by
  cases j <;> simp [anyDict, IsObject]

theorem strDict_iff (j : Json) : strDict j = true ↔ TextMap j := by
  cases j with
  | obj f =>
    unfold strDict TextMap
    simp only [List.all_eq_true, str_iff]
    constructor
    · intro h; exact ⟨f, rfl, h⟩
    · rintro ⟨f', h, h'⟩; cases h; exact h'
  | _ => exact ⟨fun h => (by cases h), fun h => (by obtain ⟨_, h, _⟩ := h; cases h)⟩

theorem list_iff (a : Json → Bool) (P : Json → Prop) (h : ∀ v, a v = true ↔ P v) (j : Json) :
    list a j = true ↔ ListOf P j := by
  cases j with
  | arr l =>
    unfold list ListOf
    simp only [List.all_eq_true, h]
    constructor
    · intro h; exact ⟨l, rfl, h⟩
    · rintro ⟨l', h, h'⟩; cases h; exact h'
  | _ => exact ⟨fun h => (by cases h), fun h => (by obtain ⟨_, h, _⟩ := h; cases h)⟩

theorem digestItem_isSome (names : List Str) (m : Str × Json) :
    (digestItem names m).isSome = true ↔ m.1 ∈ names ∧ IsText m.2 := by
  unfold digestItem
  by_cases h : m.1 ∈ names
  · rw [if_pos h, Option.isSome_map, show (strictStr m.2).isSome = str m.2 from rfl, str_iff]
    exact ⟨fun h' => ⟨h, h'⟩, fun h' => h'.2⟩
  · rw [if_neg h]
    exact ⟨fun h => (by cases h), fun h' => absurd h'.1 h⟩

theorem digestItems_isSome (names : List Str) (f : List (Str × Json)) :
    (digestItems names f).isSome = true ↔ ∀ m ∈ f, m.1 ∈ names ∧ IsText m.2 := by
  induction f with
  | nil => simp [digestItems]
  | cons m f ih =>
    rw [List.forall_mem_cons, ← ih, ← digestItem_isSome]
    rw [digestItems]
    cases digestItem names m with
    | none => simp
    | some x =>
      cases hd : digestItems names f with
      | none => simp
      | some y => simp

theorem digestSetSource_iff (j : Json) : digestSetSource j = true ↔ DigestMap j := by
  unfold digestSetSource DigestMap
  cases j with
  | obj f =>
    rw [show digestSet sourceDigestNames (.obj f) = digestItems sourceDigestNames f from rfl, digestItems_isSome]
    have hn : ∀ k : Str, k ∈ sourceDigestNames ↔ k ∈ subjectDigests ∨ k = "sha1".toList ∨ k = "gitCommit".toList := by
      intro k
      rw [sourceDigestNames, List.mem_append, show digestNames = subjectDigests from rfl, List.mem_cons, List.mem_singleton]
    simp only [hn]
    constructor
    · intro h; exact ⟨f, rfl, h⟩
    · rintro ⟨f', h, h'⟩; cases h; exact h'
  | _ => exact ⟨fun h => (by cases h), fun h => (by obtain ⟨_, h, _⟩ := h; cases h)⟩

theorem lowerChar_eq (c : Char) : lowerChar c = c.toLower := by
  unfold lowerChar Char.toLower
  have h : ('A' ≤ c ∧ c ≤ 'Z') ↔ (c.val ≥ 'A'.val ∧ c.val ≤ 'Z'.val) := Iff.rfl
  split
  · rename_i hc
    rw [dif_pos (h.1 hc)]
    obtain ⟨h1, h2⟩ := h.1 hc
    have h3 : c.val.toNat ≤ 90 := by simpa [UInt32.le_iff_toNat_le] using h2
    have hv : (c.toNat + 32).isValidChar := .inl (by show c.val.toNat + 32 < _; omega)
    apply Char.ext
    rw [Char.ofNat, dif_pos hv]
    apply UInt32.toNat.inj
    show (UInt32.ofNatLT (c.val.toNat + 32) _).toNat = (c.val + 32).toNat
    rw [UInt32.toNat_add]
    show c.val.toNat + 32 = (c.val.toNat + 32) % 2^32
    omega
  · rename_i hc
    rw [dif_neg (fun h' => hc (h.2 h'))]

theorem bool_iff (j : Json) : Slsa.bool j = true ↔ codeDialect.truth j := by
  unfold codeDialect
  cases j with
  | bool b => exact ⟨fun _ => .inl ⟨b, rfl⟩, fun _ => rfl⟩
  | num q =>
    simp [Slsa.bool]
  | str s =>
    have : s.map lowerChar = s.map Char.toLower := List.map_congr_left fun c _ => lowerChar_eq c
    have h : Slsa.bool (.str s) = true ↔ TruthText s := by
      unfold Slsa.bool TruthText
      rw [decide_eq_true_eq, this]
      rfl
    rw [h]
    constructor
    · intro h; exact .inr (.inr (.inr ⟨s, rfl, h⟩))
    · rintro (⟨_, h⟩ | h | h | ⟨s', h, h'⟩)
      · cases h
      · cases h
      · cases h
      · cases h; exact h'
  | _ =>
    refine ⟨fun h => (by cases h), ?_⟩
    rintro (⟨_, h⟩ | h | h | ⟨s', h, h'⟩) <;> cases h

theorem strictBytes_iff (j : Json) : strictBytes j = true ↔ codeDialect.content j :=
  ⟨fun h => (by cases h), fun h => h.elim⟩

theorem builderV0_1_iff (j : Json) : builderV0_1 j = true ↔ Only j ["id".toList] ∧ Has j "id".toList IsText := by
  unfold builderV0_1
  rw [model_iff, List.forall_mem_singleton, req_iff _ _ _ _ str_iff]
  rfl

theorem configSource_iff (j : Json) : configSource j = true ↔ Only j ["uri".toList, "digest".toList, "entryPoint".toList] ∧
    May j "uri".toList IsText ∧ May j "digest".toList DigestMap ∧ May j "entryPoint".toList IsText := by
  unfold configSource
  rw [model_iff, List.forall_mem_cons, List.forall_mem_cons, List.forall_mem_singleton, opt_iff _ _ _ _ str_iff,
    opt_iff _ _ _ _ digestSetSource_iff, opt_iff _ _ _ _ str_iff]
  rfl

theorem invocation_iff (j : Json) : invocation j = true ↔
    Only j ["configSource".toList, "parameters".toList, "environment".toList] ∧
    May j "configSource".toList (fun c => Only c ["uri".toList, "digest".toList, "entryPoint".toList] ∧
      May c "uri".toList IsText ∧ May c "digest".toList DigestMap ∧ May c "entryPoint".toList IsText) ∧
    May j "parameters".toList IsObject ∧ May j "environment".toList IsObject := by
  unfold invocation
  rw [model_iff, List.forall_mem_cons, List.forall_mem_cons, List.forall_mem_singleton, opt_iff _ _ _ _ configSource_iff,
    opt_iff _ _ _ _ anyDict_iff, opt_iff _ _ _ _ anyDict_iff]
  rfl

theorem completeness_iff (j : Json) : completeness j = true ↔
    Only j ["parameters".toList, "environment".toList, "materials".toList] ∧
      May j "parameters".toList codeDialect.truth ∧ May j "environment".toList codeDialect.truth ∧
      May j "materials".toList codeDialect.truth := by
  unfold completeness
  rw [model_iff, List.forall_mem_cons, List.forall_mem_cons, List.forall_mem_singleton, opt_iff _ _ _ _ bool_iff,
    opt_iff _ _ _ _ bool_iff, opt_iff _ _ _ _ bool_iff]
  rfl

theorem material_iff (j : Json) : material j = true ↔ Only j ["uri".toList, "digest".toList] ∧
    May j "uri".toList IsText ∧ May j "digest".toList DigestMap := by
  unfold material
  rw [model_iff, List.forall_mem_cons, List.forall_mem_singleton, opt_iff _ _ _ _ str_iff, opt_iff _ _ _ _ digestSetSource_iff]
  rfl

theorem metadata_iff (j : Json) : metadata j = true ↔
    Only j ["buildInvocationId".toList, "buildStartedOn".toList, "buildFinishedOn".toList,
      "completeness".toList, "reproducible".toList] ∧
    May j "buildInvocationId".toList IsText ∧ May j "buildStartedOn".toList IsText ∧ May j "buildFinishedOn".toList IsText ∧
    May j "completeness".toList (fun c => Only c ["parameters".toList, "environment".toList, "materials".toList] ∧
      May c "parameters".toList codeDialect.truth ∧ May c "environment".toList codeDialect.truth ∧
      May c "materials".toList codeDialect.truth) ∧
    May j "reproducible".toList codeDialect.truth := by
  unfold metadata
  rw [model_iff, List.forall_mem_cons, List.forall_mem_cons, List.forall_mem_cons, List.forall_mem_cons,
    List.forall_mem_singleton, opt_iff _ _ _ _ str_iff, opt_iff _ _ _ _ str_iff, opt_iff _ _ _ _ str_iff,
    opt_iff _ _ _ _ completeness_iff, opt_iff _ _ _ _ bool_iff]
  rfl

theorem truthyStr_iff (members : List (Str × Json)) (k : Str) :
    truthyStr members k = true ↔ Has (.obj members) k (fun u => ∃ c s, u = .str (c :: s)) := by
  unfold truthyStr Has
  simp only [at_obj_iff]
  cases Dict.get? members k with
  | none => exact ⟨fun h => (by cases h), fun ⟨_, h, _⟩ => (by cases h)⟩
  | some v =>
    cases v with
    | str s =>
      cases s with
      | nil => exact ⟨fun h => (by cases h), fun ⟨_, h, _, _, h'⟩ => (by cases h; cases h')⟩
      | cons c s => exact ⟨fun _ => ⟨_, rfl, c, s, rfl⟩, fun _ => rfl⟩
    | _ => exact ⟨fun h => (by cases h), fun ⟨_, h, _, _, h'⟩ => (by cases h; cases h')⟩

/-- if the digest is well-formed -/
theorem truthyModel_iff (members : List (Str × Json)) (k : Str) (hd : May (.obj members) k DigestMap) :
    truthyModel members k = true ↔ Has (.obj members) k DigestMap := by
  unfold truthyModel Has
  unfold May at hd
  simp only [at_obj_iff] at hd ⊢
  cases hg : Dict.get? members k with
  | none => exact ⟨fun h => (by cases h), fun ⟨_, h, _⟩ => (by cases h)⟩
  | some v =>
    cases v with
    | null => exact ⟨fun h => (by cases h), fun ⟨_, h, _, h', _⟩ => (by cases h; cases h')⟩
    | _ =>
      refine ⟨fun _ => ?_, fun _ => rfl⟩
      rcases hd _ hg with h | h
      · cases h
      · exact ⟨_, rfl, h⟩

theorem resourceDescriptor_iff (j : Json) : resourceDescriptor j = true ↔ Resource codeDialect j := by
  unfold resourceDescriptor Resource descriptorFields
  rw [Bool.and_eq_true, model_iff, List.forall_mem_cons, List.forall_mem_cons, List.forall_mem_cons, List.forall_mem_cons,
    List.forall_mem_cons, List.forall_mem_cons, List.forall_mem_singleton, opt_iff _ _ _ _ str_iff, opt_iff _ _ _ _ str_iff,
    opt_iff _ _ _ _ digestSetSource_iff, opt_iff _ _ _ _ strictBytes_iff, opt_iff _ _ _ _ str_iff, opt_iff _ _ _ _ str_iff,
    opt_iff _ _ _ _ anyDict_iff]
  cases j with
  | obj members =>
    dsimp only
    rw [Bool.or_eq_true, truthyStr_iff]
    constructor
    · rintro ⟨⟨h1, h2, h3, h4, h5, h6, h7, h8⟩, h9⟩
      rw [truthyModel_iff _ _ h4] at h9
      exact ⟨h1, h2, h3, h4, h5, h6, h7, h8, h9.imp_right .inl⟩
    · rintro ⟨h1, h2, h3, h4, h5, h6, h7, h8, h9⟩
      refine ⟨⟨h1, h2, h3, h4, h5, h6, h7, h8⟩, ?_⟩
      rw [truthyModel_iff _ _ h4]
      rcases h9 with h | h | ⟨_, _, h⟩
      · exact .inl h
      · exact .inr h
      · exact h.elim
  | _ =>
    constructor
    · rintro ⟨⟨⟨_, h, _⟩, _⟩, _⟩; cases h
    · rintro ⟨⟨_, h, _⟩, _⟩; cases h

theorem builderV1_0_iff (j : Json) : builderV1_0 j = true ↔
    Only j ["id".toList, "builderDependencies".toList, "version".toList] ∧ Has j "id".toList IsText ∧
      May j "builderDependencies".toList (ListOf (Resource codeDialect)) ∧ May j "version".toList TextMap := by
  unfold builderV1_0
  rw [model_iff, List.forall_mem_cons, List.forall_mem_cons, List.forall_mem_singleton, req_iff _ _ _ _ str_iff,
    opt_iff _ _ _ _ (list_iff _ _ resourceDescriptor_iff), opt_iff _ _ _ _ strDict_iff]
  rfl

theorem buildMetadata_iff (j : Json) : buildMetadata j = true ↔
    Only j ["invocationId".toList, "startedOn".toList, "finishedOn".toList] ∧
      May j "invocationId".toList IsText ∧ May j "startedOn".toList IsText ∧ May j "finishedOn".toList IsText := by
  unfold buildMetadata
  rw [model_iff, List.forall_mem_cons, List.forall_mem_cons, List.forall_mem_singleton, opt_iff _ _ _ _ str_iff,
    opt_iff _ _ _ _ str_iff, opt_iff _ _ _ _ str_iff]
  rfl

theorem runDetails_iff (j : Json) : runDetails j = true ↔
    Only j ["builder".toList, "metadata".toList, "byproducts".toList] ∧
    Has j "builder".toList (fun b => Only b ["id".toList, "builderDependencies".toList, "version".toList] ∧
      Has b "id".toList IsText ∧ May b "builderDependencies".toList (ListOf (Resource codeDialect)) ∧
      May b "version".toList TextMap) ∧
    May j "metadata".toList (fun m => Only m ["invocationId".toList, "startedOn".toList, "finishedOn".toList] ∧
      May m "invocationId".toList IsText ∧ May m "startedOn".toList IsText ∧ May m "finishedOn".toList IsText) ∧
    May j "byproducts".toList (ListOf (Resource codeDialect)) := by
  unfold runDetails
  rw [model_iff, List.forall_mem_cons, List.forall_mem_cons, List.forall_mem_singleton, req_iff _ _ _ _ builderV1_0_iff,
    opt_iff _ _ _ _ buildMetadata_iff, opt_iff _ _ _ _ (list_iff _ _ resourceDescriptor_iff)]
  rfl

theorem buildDefinition_iff (j : Json) : buildDefinition j = true ↔
    Only j ["buildType".toList, "externalParameters".toList, "internalParameters".toList, "resolvedDependencies".toList] ∧
    Has j "buildType".toList IsText ∧ Has j "externalParameters".toList IsObject ∧ May j "internalParameters".toList IsObject ∧
    May j "resolvedDependencies".toList (ListOf (Resource codeDialect)) := by
  unfold buildDefinition
  rw [model_iff, List.forall_mem_cons, List.forall_mem_cons, List.forall_mem_cons, List.forall_mem_singleton,
    req_iff _ _ _ _ str_iff, req_iff _ _ _ _ anyDict_iff, opt_iff _ _ _ _ anyDict_iff,
    opt_iff _ _ _ _ (list_iff _ _ resourceDescriptor_iff)]
  rfl

/-- **C88** (partial: the code's dialect is not that of SLSA, see below) A document is accepted as a v0.2 predicate exactly if it is
SLSA provenance v0.2, but for booleans that may also be written as numbers or texts. -/
theorem C88_v0_2_iff_partial (j : Json) : predicateV0_2 j = true ↔ ProvenanceV0_2 codeDialect j := by
  unfold predicateV0_2
  rw [model_iff, List.forall_mem_cons, List.forall_mem_cons, List.forall_mem_cons, List.forall_mem_cons, List.forall_mem_cons,
    List.forall_mem_singleton, req_iff _ _ _ _ builderV0_1_iff, req_iff _ _ _ _ str_iff, opt_iff _ _ _ _ invocation_iff,
    opt_iff _ _ _ _ metadata_iff, opt_iff _ _ _ _ anyDict_iff, opt_iff _ _ _ _ (list_iff _ _ material_iff)]
  rfl

/-- **C88** (partial: see below) A document is accepted as a v1 predicate exactly if it is SLSA provenance v1 in which no resource
has contents. -/
theorem C88_v1_iff_partial (j : Json) : predicateV1_0 j = true ↔ ProvenanceV1 codeDialect j := by
  unfold predicateV1_0
  rw [model_iff, List.forall_mem_cons, List.forall_mem_singleton, req_iff _ _ _ _ buildDefinition_iff,
    req_iff _ _ _ _ runDetails_iff]
  rfl

theorem may_mono {j : Json} {k : Str} {P Q : Json → Prop} (h : ∀ v, P v → Q v) (hm : May j k P) : May j k Q :=
  fun v hv => (hm v hv).imp_right (h v)

theorem has_mono {j : Json} {k : Str} {P Q : Json → Prop} (h : ∀ v, P v → Q v) (hm : Has j k P) : Has j k Q :=
  let ⟨v, hv, hp⟩ := hm; ⟨v, hv, h v hp⟩

theorem listOf_mono {P Q : Json → Prop} (h : ∀ v, P v → Q v) {j : Json} (hm : ListOf P j) : ListOf Q j :=
  let ⟨l, hl, hp⟩ := hm; ⟨l, hl, fun x hx => h x (hp x hx)⟩

theorem provenanceV0_2_mono {d d' : Dialect} (ht : ∀ v, d.truth v → d'.truth v) {j : Json} (h : ProvenanceV0_2 d j) :
    ProvenanceV0_2 d' j := by
  obtain ⟨h1, h2, h3, h4, h5, h6, h7⟩ := h
  refine ⟨h1, h2, h3, h4, may_mono ?_ h5, h6, h7⟩
  rintro m ⟨m1, m2, m3, m4, m5, m6⟩
  refine ⟨m1, m2, m3, m4, may_mono ?_ m5, may_mono ht m6⟩
  rintro c ⟨c1, c2, c3, c4⟩
  exact ⟨c1, may_mono ht c2, may_mono ht c3, may_mono ht c4⟩

theorem resource_mono {d d' : Dialect} (hc : ∀ v, d.content v → d'.content v) {j : Json} (h : Resource d j) : Resource d' j := by
  obtain ⟨h1, h2, h3, h4, h5, h6, h7, h8, h9⟩ := h
  exact ⟨h1, h2, h3, h4, may_mono hc h5, h6, h7, h8, h9.imp_right (.imp_right (has_mono hc))⟩

theorem provenanceV1_mono {d d' : Dialect} (hc : ∀ v, d.content v → d'.content v) {j : Json} (h : ProvenanceV1 d j) :
    ProvenanceV1 d' j := by
  obtain ⟨h1, h2, h3⟩ := h
  have hl : ∀ v, ListOf (Resource d) v → ListOf (Resource d') v := fun v => listOf_mono fun _ => resource_mono hc
  refine ⟨h1, has_mono ?_ h2, has_mono ?_ h3⟩
  · rintro b ⟨b1, b2, b3, b4, b5⟩
    exact ⟨b1, b2, b3, b4, may_mono hl b5⟩
  · rintro r ⟨r1, r2, r3, r4⟩
    refine ⟨r1, has_mono ?_ r2, r3, may_mono hl r4⟩
    rintro b ⟨b1, b2, b3, b4⟩
    exact ⟨b1, b2, may_mono hl b3, b4⟩

/-- **C88** (partial) SLSA provenance whose booleans are booleans and whose resources have no contents is accepted; such documents
are SLSA provenance; and everything that is accepted as v1 is SLSA provenance v1. -/
theorem C88_common_partial (j : Json) :
    (ProvenanceV0_2 commonDialect j → predicateV0_2 j = true ∧ ProvenanceV0_2 slsaDialect j) ∧
    (ProvenanceV1 commonDialect j → predicateV1_0 j = true) ∧ (predicateV1_0 j = true → ProvenanceV1 slsaDialect j) :=
  ⟨fun h => ⟨(C88_v0_2_iff_partial j).2 (provenanceV0_2_mono (d := commonDialect) (fun _ h => Or.inl h) h),
    provenanceV0_2_mono (d := commonDialect) (fun _ h => h) h⟩,
   fun h => (C88_v1_iff_partial j).2 (provenanceV1_mono (d := commonDialect) (fun _ h => h) h),
   fun h => provenanceV1_mono (d := codeDialect) (fun _ h => False.elim h) ((C88_v1_iff_partial j).1 h)⟩

/-- SLSA provenance v1 with a list of byproducts -/
def exProvenance (byproducts : List Json) : Json :=
  .obj [("buildDefinition".toList, .obj [("buildType".toList, .str "t".toList), ("externalParameters".toList, .obj [])]),
    ("runDetails".toList, .obj [("builder".toList, .obj [("id".toList, .str "i".toList)]),
      ("byproducts".toList, .arr byproducts)])]

/-- SLSA provenance v0.2 with a value for `reproducible` -/
def exProvenance02 (reproducible : Json) : Json :=
  .obj [("builder".toList, .obj [("id".toList, .str "i".toList)]), ("buildType".toList, .str "t".toList),
    ("metadata".toList, .obj [("reproducible".toList, reproducible)])]

theorem may_none {f : List (Str × Json)} {k : Str} {P : Json → Prop} (h : Dict.get? f k = none) : May (.obj f) k P := by
  intro v hv
  rw [at_obj_iff, h] at hv
  cases hv

theorem may_some {f : List (Str × Json)} {k : Str} {P : Json → Prop} {v : Json} (h : Dict.get? f k = some v) (hp : P v) :
    May (.obj f) k P := by
  intro w hw
  rw [at_obj_iff, h] at hw
  cases hw
  exact .inr hp

theorem has_some {f : List (Str × Json)} {k : Str} {P : Json → Prop} {v : Json} (h : Dict.get? f k = some v) (hp : P v) :
    Has (.obj f) k P := ⟨v, (at_obj_iff _ _ _).2 h, hp⟩

/-- the names of the members are among those allowed -/
theorem only_keys {f : List (Str × Json)} {ks : List Str} (ks' : List Str) (he : f.map Prod.fst = ks') (h : ∀ m ∈ ks', m ∈ ks) :
    Only (.obj f) ks :=
  ⟨f, rfl, fun m hm => h _ (he ▸ List.mem_map.2 ⟨m, hm, rfl⟩)⟩

theorem only_obj {f : List (Str × Json)} {ks : List Str} (h : ∀ m ∈ f.map Prod.fst, m ∈ ks) : Only (.obj f) ks :=
  ⟨f, rfl, fun m hm => h _ (List.mem_map.2 ⟨m, hm, rfl⟩)⟩

/-- the example is provenance if its byproducts are resources -/
theorem exProvenance_ok (d : Dialect) (l : List Json) (h : ∀ x ∈ l, Resource d x) : ProvenanceV1 d (exProvenance l) := by
  refine ⟨only_keys ["buildDefinition".toList, "runDetails".toList] rfl (by decide), has_some rfl ⟨only_obj (by decide),
    has_some rfl ⟨_, rfl⟩, has_some rfl ⟨_, rfl⟩, may_none rfl, may_none rfl⟩,
    has_some rfl ⟨only_keys ["builder".toList, "byproducts".toList] rfl (by decide), has_some rfl ⟨only_obj (by decide),
    has_some rfl ⟨_, rfl⟩, may_none rfl, may_none rfl⟩, may_none rfl, may_some rfl ⟨l, rfl, h⟩⟩⟩

/-- **C88** refuted: provenance in which a resource has contents is SLSA provenance v1, but is rejected, because contents would have
to be `bytes`, which JSON documents do not have. -/
theorem C88_content_rejected : ∃ j, ProvenanceV1 slsaDialect j ∧ predicateV1_0 j = false := by
  refine ⟨exProvenance [.obj [("content".toList, .str "Zm9v".toList)]], exProvenance_ok _ _ ?_, by decide⟩
  intro x hx
  rw [List.mem_singleton] at hx
  subst hx
  exact ⟨only_obj (by decide), may_none rfl, may_none rfl, may_none rfl, may_some rfl ⟨_, rfl⟩, may_none rfl, may_none rfl,
    may_none rfl, .inr (.inr (has_some rfl ⟨_, rfl⟩))⟩

/-- **C88** refuted: provenance with a text instead of a boolean is accepted as v0.2, but is not SLSA provenance. -/
theorem C88_loose_boolean : ∃ j, predicateV0_2 j = true ∧ ¬ ProvenanceV0_2 slsaDialect j := by
  refine ⟨exProvenance02 (.str "Yes".toList), by decide, ?_⟩
  rintro ⟨_, _, _, _, h, _⟩
  rcases h _ ((at_obj_iff _ _ _).2 rfl) with h | ⟨_, _, _, _, _, h⟩
  · cases h
  · rcases h _ ((at_obj_iff _ _ _).2 rfl) with h | ⟨_, h⟩
    · cases h
    · cases h

/-- provenance that is accepted, with a resource; and rejected ones: a misspelt member, a resource that only has a name -/
example : predicateV1_0 (exProvenance [.obj [("uri".toList, .str "u".toList), ("name".toList, .null)]]) = true ∧
    predicateV1_0 (exProvenance [.obj [("url".toList, .str "u".toList)]]) = false ∧
    predicateV1_0 (exProvenance [.obj [("name".toList, .str "u".toList)]]) = false ∧
    predicateV0_2 (exProvenance02 (.bool true)) = true ∧ predicateV0_2 (exProvenance02 (.num 2)) = false := by decide

end Sigstore.Props
