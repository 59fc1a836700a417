import Verif.Props.HttpClients

/-!
# C101: how the Rekor clients fail, and what the Fulcio trust bundle is
-/

namespace Sigstore.Props

open Sigstore.Oidc Sigstore.Trust Sigstore.LogEntry Sigstore.Http Sigstore.RekorClient Sigstore.Spec

/-- the exceptions that a malformed document can cause: none of them is the client's own error -/
def MalformedError (e : Exc) : Prop :=
  e = .requestsJson ∨ e = .attributeError ∨ e = .keyError ∨ e = .typeError ∨ e = .valueError ∨ e = .binasciiError ∨
    e = .pydantic ∨ e = .invalidBundle

theorem item_error {j : Json} {k : Str} {e : Exc} (h : item j k = .error e) : e = .keyError ∨ e = .typeError := by
  unfold item at h
  split at h
  · split at h <;> cases h; exact .inl rfl
  · cases h; exact .inr rfl

theorem fromhexJson_error {j : Json} {e : Exc} (h : fromhexJson j = .error e) : e = .valueError ∨ e = .typeError := by
  unfold fromhexJson at h
  split at h
  · split at h <;> cases h; exact .inl rfl
  · cases h; exact .inr rfl

theorem validated_error {α : Type} {o : Option α} {e : Exc} (h : validated o = .error e) : e = .pydantic := by
  cases o <;> cases h; rfl

/-- reading an entry from a document that does not describe one -/
theorem fromV1Json_error {libs : EntryLibs} {j : Json} {e : Exc} (h : fromV1Json libs j = .error e) : MalformedError e := by
  have hi : ∀ {j : Json} {k : Str}, item j k = .error e → MalformedError e := fun h => by
    rcases item_error h with rfl | rfl <;> simp [MalformedError]
  have hx : ∀ {j : Json}, fromhexJson j = .error e → MalformedError e := fun h => by
    rcases fromhexJson_error h with rfl | rfl <;> simp [MalformedError]
  have hv : ∀ {α : Type} {o : Option α}, validated o = .error e → MalformedError e := fun h => by
    rw [validated_error h]; simp [MalformedError]
  have hb : ∀ {α β : Type} {x : Py α} {k : α → Py β}, (x = .error e → MalformedError e) →
      (∀ a, k a = .error e → MalformedError e) → (x >>= k) = .error e → MalformedError e := fun h1 h2 h => by
    rcases (bind_error_iff _ _ _).1 h with h | ⟨a, _, h⟩
    · exact h1 h
    · exact h2 a h
  unfold fromV1Json at h
  revert h
  refine hb (fun h => ?_) fun entries => ?_
  · unfold items at h
    split at h <;> cases h; simp [MalformedError]
  split
  swap
  · intro h; cases h; simp [MalformedError]
  refine hb hi fun bodyText => hb (fun h => ?_) fun body => hb hv fun kv => ?_
  · unfold b64decodeJson at h
    split at h
    · rcases b64Decode_error h with ⟨rfl, _⟩ | rfl <;> simp [MalformedError]
    · cases h; simp [MalformedError]
  split
  · intro h; cases h; simp [MalformedError]
  refine hb hi fun _ => hb hi fun _ => hb hi fun _ => hb hi fun _ => hb hx fun _ => hb hi fun _ => hb hi fun _ =>
    hb (fun h => ?_) fun _ => hb hi fun _ => hb hi fun _ => hb hx fun _ => hb hi fun _ => hb hi fun _ => hb (fun h => ?_) fun _ =>
    hb (fun h => ?_) fun _ => hb hi fun _ => hb (fun h => ?_) fun _ => hb hv fun _ => hb hv fun _ => hb hv fun _ => hb hv fun _ =>
    hb (fun h => ?_) fun _ h => ?_
  · unfold b64Member at h
    split at h
    · split at h <;> cases h; simp [MalformedError]
    · cases h; simp [MalformedError]
  · unfold iter at h
    split at h <;> cases h; simp [MalformedError]
  · obtain ⟨x, _, h⟩ := forEach_error h
    exact hx h
  · unfold strMember at h
    split at h <;> cases h; simp [MalformedError]
  · cases h
  · cases h

theorem json_error {r : Response} {e : Exc} (h : r.json = .error e) : e = .requestsJson := by
  unfold Response.json at h
  split at h <;> cases h; rfl

theorem malformed_ne {e : Exc} (h : MalformedError e) : e ≠ .rekorClient := by
  rcases h with rfl | rfl | rfl | rfl | rfl | rfl | rfl | rfl <;> decide

theorem readEntry_error {libs : EntryLibs} {r : Response} {e : Exc} (hs : ¬ ErrorStatus r.status)
    (h : readEntry libs (.ok r) = .error e) : MalformedError e := by
  have h : r.checked (.error .rekorClient) (r.json >>= fromV1Json libs) = .error e := h
  rw [checked_ok hs] at h
  rcases (bind_error_iff _ _ _).1 h with h | ⟨j, _, h⟩
  · rw [json_error h]; exact .inl rfl
  · exact fromV1Json_error h

theorem oldest_error {e : Exc} : ∀ {l : List (Py LogEntry)} {best : Option LogEntry}, oldest l best = .error e →
    .error e ∈ l ∨ e = .valueError
  | [], _, h => by cases h
  | x :: l, best, h => by
    rw [oldest.eq_def] at h
    dsimp only at h
    split at h
    · cases h; exact .inl (by simp)
    · split at h
      · cases h; exact .inr rfl
      · split at h
        · rcases oldest_error h with h | h
          · exact .inl (by simp [h])
          · exact .inr h
        · split at h
          · rcases oldest_error h with h | h
            · exact .inl (by simp [h])
            · exact .inr h
          · rcases oldest_error h with h | h
            · exact .inl (by simp [h])
            · exact .inr h

theorem logInfo_error {j : Json} {e : Exc} (h : LogInfo.fromResponse j = .error e) : MalformedError e := by
  have hi : ∀ {j : Json} {k : Str}, item j k = .error e → MalformedError e := fun h => by
    rcases item_error h with rfl | rfl <;> simp [MalformedError]
  unfold LogInfo.fromResponse at h
  rcases (bind_error_iff _ _ _).1 h with h | ⟨_, _, h⟩
  · exact hi h
  rcases (bind_error_iff _ _ _).1 h with h | ⟨_, _, h⟩
  · exact hi h
  rcases (bind_error_iff _ _ _).1 h with h | ⟨_, _, h⟩
  · exact hi h
  rcases (bind_error_iff _ _ _).1 h with h | ⟨_, _, h⟩
  · exact hi h
  cases h

theorem readResults_error {libs : EntryLibs} {j : Json} {e : Exc}
    (h : (iter j >>= fun results => oldest (results.map (fromV1Json libs)) none) = .error e) : MalformedError e := by
  rcases (bind_error_iff _ _ _).1 h with h | ⟨l, _, h⟩
  · unfold iter at h
    split at h <;> cases h; simp [MalformedError]
  · rcases oldest_error h with h | rfl
    · obtain ⟨x, _, hx⟩ := List.mem_map.1 h
      exact fromV1Json_error hx
    · simp [MalformedError]

theorem readV2_error {fromDict : Json → Option LogEntry} {j : Json} {e : Exc}
    (h : (validated (fromDict j) >>= fun x => x.validate >>= fun _ => .ok x) = .error e) : MalformedError e := by
  rcases (bind_error_iff _ _ _).1 h with h | ⟨x, _, h⟩
  · rw [validated_error h]; simp [MalformedError]
  · rcases (bind_error_iff _ _ _).1 h with h | ⟨_, _, h⟩
    · unfold LogEntry.validate at h
      split at h
      · cases h; simp [MalformedError]
      · split at h <;> cases h; simp [MalformedError]
    · cases h

/-- an answered request: the error for an error status, else what a document causes -/
theorem checked_json_error {α : Type} {r : Response} {k : Json → Py α} {handler : Py α} {e : Exc}
    (hk : ∀ j, k j = .error e → MalformedError e) (hs : ¬ ErrorStatus r.status)
    (h : r.checked handler (r.json >>= k) = .error e) : MalformedError e := by
  rw [checked_ok hs] at h
  rcases (bind_error_iff _ _ _).1 h with h | ⟨j, _, h⟩
  · rw [json_error h]; exact .inl rfl
  · exact hk j h

/-- **C101** Rekor's answer has no error status, but is not what is expected: what is raised is then never `RekorClientError`
but some other exception, by all requests. -/
theorem C101_malformed (r : Response) (hs : ¬ ErrorStatus r.status) (e : Exc) :
    (rekorLogGet (.ok r) = .error e → MalformedError e) ∧
    (∀ libs, rekorEntriesPost libs (.ok r) = .error e → MalformedError e) ∧
    (∀ libs send uuid index, (∀ q, send q = .ok r) → rekorEntriesGet libs send uuid index = .error e → MalformedError e) ∧
    (∀ libs, rekorRetrieve libs (.ok r) = .error e → MalformedError e) ∧
    (∀ fromDict, rekorV2CreateEntry fromDict (.ok r) = .error e → MalformedError e) := by
  refine ⟨fun h => checked_json_error (fun _ => logInfo_error) hs h, fun libs h => readEntry_error hs h, ?_,
    fun libs h => checked_json_error (fun _ => readResults_error) hs h,
    fun fromDict h => checked_json_error (fun _ => readV2_error) hs h⟩
  intro libs send uuid index hsend h
  unfold rekorEntriesGet at h
  rcases (bind_error_iff _ _ _).1 h with h | ⟨q, _, h⟩
  · unfold entryQuery at h
    split at h
    · cases h; simp [MalformedError]
    · rename_i hq
      split at h
      · cases h
      · split at h
        · cases h
        · exact absurd rfl hq
  · rw [hsend] at h
    exact readEntry_error hs h

/-- **C101** (partial: what is missing is every other failure, see `C101_malformed`) All requests to Rekor that are answered raise
`RekorClientError` exactly for an error status. -/
theorem C101_rekor_error_iff_partial (r : Response) :
    (rekorLogGet (.ok r) = .error .rekorClient ↔ ErrorStatus r.status) ∧
    (∀ libs, rekorEntriesPost libs (.ok r) = .error .rekorClient ↔ ErrorStatus r.status) ∧
    (∀ libs send uuid index, (∀ q, send q = .ok r) → ((∃ u, u ≠ [] ∧ uuid = some u ∧ index = none) ∨ ∃ i, i ≠ 0 ∧ uuid = none ∧ index = some i) →
      (rekorEntriesGet libs send uuid index = .error .rekorClient ↔ ErrorStatus r.status)) ∧
    (∀ libs, rekorRetrieve libs (.ok r) = .error .rekorClient ↔ ErrorStatus r.status) ∧
    (∀ fromDict, rekorV2CreateEntry fromDict (.ok r) = .error .rekorClient ↔ ErrorStatus r.status) := by
  have hm := C101_malformed r
  have he := C80_error_status_raises r
  have key : ∀ {P : Prop} (_ : P → ErrorStatus r.status → True) (_ : ErrorStatus r.status → P)
      (_ : ¬ ErrorStatus r.status → P → MalformedError .rekorClient), P ↔ ErrorStatus r.status := by
    intro P _ h1 h2
    refine ⟨fun h => ?_, h1⟩
    by_contra hs
    exact malformed_ne (h2 hs h) rfl
  refine ⟨key (fun _ _ => trivial) (fun hs => (he hs).1) fun hs => (hm hs _).1,
    fun libs => key (fun _ _ => trivial) (fun hs => (he hs).2.1 libs) fun hs => (hm hs _).2.1 libs, ?_,
    fun libs => key (fun _ _ => trivial) (fun hs => (he hs).2.2.2.1 libs) fun hs => (hm hs _).2.2.2.1 libs,
    fun fromDict => key (fun _ _ => trivial) (fun hs => (he hs).2.2.2.2.1 fromDict) fun hs => (hm hs _).2.2.2.2 fromDict⟩
  intro libs send uuid index hsend hq
  refine key (fun _ _ => trivial) (fun hs => ?_) fun hs => (hm hs _).2.2.1 libs send uuid index hsend
  obtain ⟨q, hq⟩ : ∃ q, entryQuery uuid index = .ok q := by
    rcases hq with ⟨u, hu, rfl, rfl⟩ | ⟨i, hi, rfl, rfl⟩
    · exact ⟨.byUuid u, by cases u <;> first | exact absurd rfl hu | rfl⟩
    · refine ⟨.byIndex i, ?_⟩
      unfold entryQuery
      rw [show (uuidTruthy none ^^ indexTruthy (some i)) = true by simp [uuidTruthy, indexTruthy, hi]]
      rfl
  unfold rekorEntriesGet
  rw [hq]
  change readEntry libs (send q) = _
  rw [hsend]
  exact (he hs).2.1 libs

/-- **C101** refuted ("a generic error in the Rekor client"): connection errors, answers that are no JSON, and documents that
describe no entry are raised as other exceptions, which are no errors of sigstore either. -/
theorem C101_other_exceptions (libs : EntryLibs) :
    rekorEntriesPost libs (.error .requestsConnection) = .error .requestsConnection ∧
    rekorEntriesPost libs (.ok (okJson none)) = .error .requestsJson ∧
    rekorEntriesPost libs (.ok (okJson (some .null))) = .error .attributeError ∧
    rekorEntriesPost libs (.ok (okJson (some (.obj [])))) = .error .valueError ∧
    rekorEntriesPost libs (.ok (okJson (some (.obj [("u".toList, .obj [])])))) = .error .keyError ∧
    rekorEntriesPost libs (.ok (okJson (some (.obj [("u".toList, .null)])))) = .error .typeError ∧
    rekorEntriesPost libs (.ok (okJson (some (.obj [("u".toList, .obj [("body".toList, .str "A".toList)])])))) = .error .binasciiError ∧
    (libs.parseEntry [] = none →
      rekorEntriesPost libs (.ok (okJson (some (.obj [("u".toList, .obj [("body".toList, .str [])])])))) = .error .pydantic) ∧
    ∀ e ∈ [Exc.requestsConnection, .requestsJson, .attributeError, .valueError, .keyError, .typeError, .binasciiError, .pydantic],
      e.isSigstoreError = false := by
  refine ⟨rfl, rfl, rfl, rfl, rfl, rfl, rfl, fun h => ?_, by decide⟩
  change validated (libs.parseEntry []) >>= _ = _
  rw [h]
  rfl

/-- an error status -/
example (libs : EntryLibs) : rekorEntriesPost libs (.ok ⟨409, [], [], none⟩) = .error .rekorClient :=
  ((C101_rekor_error_iff_partial _).2.1 libs).2 ⟨by decide, by decide⟩

/-! ## The trust bundle of Fulcio -/

/-- what a loop over a document sees -/
def Sees (x : Json) (l : List Json) : Prop :=
  x = .arr l ∨ (∃ fields, x = .obj fields ∧ l = fields.map fun f => .str f.1) ∨ ∃ s : Str, x = .str s ∧ l = s.map fun c => .str [c]

theorem iter_ok_iff' (x : Json) (l : List Json) : iter x = .ok l ↔ Sees x l := by
  unfold iter Sees
  cases x <;> simp [eq_comm]

theorem sees_texts_iff (y : Json) (ts : List Str) : Sees y (ts.map .str) ↔ Elements y ts := by
  have hinj : Function.Injective (List.map Json.str) := List.map_injective_iff.2 fun _ _ h => Json.str.inj h
  unfold Sees Elements
  refine or_congr Iff.rfl (or_congr ?_ ?_)
  · refine exists_congr fun f => and_congr_right fun _ => ?_
    rw [show (f.map fun g => Json.str g.1) = (f.map Prod.fst).map .str by simp]
    exact hinj.eq_iff
  · refine exists_congr fun t => and_congr_right fun _ => ?_
    rw [show (t.map fun c => Json.str [c]) = (t.map ([·])).map .str by simp]
    exact hinj.eq_iff

/-- **C64** The trust bundle that is read from any response: exactly if the status is no error and the document has a list of
objects, each of which has a list of texts that load as these certificates; nothing is left out, and the order is kept.  (As
Python iterates over anything, in place of a list of texts there may be an object, whose names are read, or a text.) -/
theorem C64_trust_bundle_iff (loadPem : Bytes → Option Cert) (exchange : Py Response) (chains : List (List Cert)) :
    fulcioTrustBundle loadPem exchange = .ok chains ↔
      ∃ r j x docs, exchange = .ok r ∧ ¬ ErrorStatus r.status ∧ r.json? = some j ∧ At j ["chains".toList] x ∧ Sees x docs ∧
        List.Forall₂ (fun doc chain => ∃ y ts, At doc ["certificates".toList] y ∧ Elements y ts ∧
          ts.map (fun t => loadPem (utf8 t)) = chain.map some) docs chains := by
  have hchain : ∀ doc chain, trustChain loadPem doc = .ok chain ↔ ∃ y ts, At doc ["certificates".toList] y ∧ Elements y ts ∧
      ts.map (fun t => loadPem (utf8 t)) = chain.map some := by
    intro doc chain
    unfold trustChain
    simp only [bind_ok_iff, item_ok_iff, iter_ok_iff', forEach_loads_iff]
    constructor
    · rintro ⟨y, hy, l, hl, ts, rfl, hts⟩
      exact ⟨y, ts, hy, (sees_texts_iff y ts).1 hl, hts⟩
    · rintro ⟨y, ts, hy, hl, hts⟩
      exact ⟨y, hy, _, (sees_texts_iff y ts).2 hl, ts, rfl, hts⟩
  have hall : ∀ docs chains, forEach (trustChain loadPem) docs = .ok chains ↔
      List.Forall₂ (fun doc chain => trustChain loadPem doc = .ok chain) docs chains := by
    intro docs
    induction docs with
    | nil => intro chains; cases chains <;> simp [forEach]
    | cons d ds ih =>
      intro chains
      rw [forEach_ok_iff]
      cases chains with
      | nil => simp
      | cons c cs =>
        rw [List.forall₂_cons, ← ih, forEach_ok_iff]
        simp
  unfold fulcioTrustBundle
  simp only [bind_ok_iff, checked_ok_iff, json_ok_iff, item_ok_iff, iter_ok_iff', hall, hchain]
  constructor
  · rintro ⟨r, hr, hs, j, hj, x, hx, l, hl, h⟩
    exact ⟨r, j, x, l, hr, hs, hj, hx, hl, h⟩
  · rintro ⟨r, j, x, l, hr, hs, hj, hx, hl, h⟩
    exact ⟨r, hr, hs, j, hj, x, hx, l, hl, h⟩

/-- a bundle of two chains -/
example : fulcioTrustBundle (fun b => if b = [65] then some exCert else none)
    (.ok (okJson (some (.obj [("chains".toList, .arr [.obj [("certificates".toList, .arr [.str "A".toList, .str "A".toList])],
      .obj [("certificates".toList, .arr [])]])])))) = .ok [[exCert, exCert], []] := by
  refine (C64_trust_bundle_iff _ _ _).2 ⟨_, _, _, _, rfl, ?_, rfl, ⟨_, _, rfl, rfl, rfl⟩, .inl rfl, ?_⟩
  · rintro ⟨h, _⟩; revert h; decide
  · refine .cons ⟨_, ["A".toList, "A".toList], ⟨_, _, rfl, rfl, rfl⟩, .inl rfl, rfl⟩ (.cons ⟨_, [], ⟨_, _, rfl, rfl, rfl⟩, .inl rfl, rfl⟩ .nil)

end Sigstore.Props
