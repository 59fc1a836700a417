import Verif.Spec.Http
import Verif.Props.RekorClient
import Verif.Props.Signer
import Verif.Props.Oidc
import Verif.Props.OAuth

/-!
# Properties of the HTTP clients: C68 on arbitrary documents, C80-C85
-/

namespace Sigstore.Props

open Sigstore.Oidc Sigstore.Trust Sigstore.LogEntry Sigstore.RekorClient Sigstore.Http Sigstore.Spec Sigstore.Signing

theorem bind_ok_iff {α β : Type} (x : Py α) (f : α → Py β) (b : β) :
    (x >>= f) = .ok b ↔ ∃ a, x = .ok a ∧ f a = .ok b := by
  cases x with
  | error e => simp [bind, Except.bind]
  | ok a => simp [bind, Except.bind]

theorem bind_error_iff {α β : Type} (x : Py α) (f : α → Py β) (e : Exc) :
    (x >>= f) = .error e ↔ x = .error e ∨ ∃ a, x = .ok a ∧ f a = .error e := by
  cases x with
  | error e => simp [bind, Except.bind]
  | ok a => simp [bind, Except.bind]

/-! ## Documents -/

theorem item_ok_iff (j : Json) (k : Str) (v : Json) : item j k = .ok v ↔ At j [k] v := by
  unfold item
  cases j with
  | obj fields =>
    dsimp only
    constructor
    · intro h
      cases hg : Dict.get? fields k with
      | none => rw [hg] at h; cases h
      | some x => rw [hg] at h; cases h; exact ⟨fields, _, rfl, hg, rfl⟩
    · rintro ⟨f, x, h1, h2, h3⟩
      cases h1
      rw [h2]
      exact congrArg _ h3
  | null => exact ⟨fun h => (by cases h), fun ⟨_, _, h, _⟩ => (by cases h)⟩
  | bool b => exact ⟨fun h => (by cases h), fun ⟨_, _, h, _⟩ => (by cases h)⟩
  | num q => exact ⟨fun h => (by cases h), fun ⟨_, _, h, _⟩ => (by cases h)⟩
  | str s => exact ⟨fun h => (by cases h), fun ⟨_, _, h, _⟩ => (by cases h)⟩
  | arr l => exact ⟨fun h => (by cases h), fun ⟨_, _, h, _⟩ => (by cases h)⟩

theorem item_error_iff (j : Json) (k : Str) (e : Exc) :
    item j k = .error e ↔ (e = .keyError ∧ Missing j [k]) ∨ (e = .typeError ∧ ∀ fields, j ≠ .obj fields) := by
  unfold item
  cases j with
  | obj fields =>
    dsimp only
    cases hg : Dict.get? fields k with
    | none =>
      simp only [Except.error.injEq, ne_eq, Json.obj.injEq]
      constructor
      · rintro rfl
        exact .inl ⟨rfl, fields, rfl, .inl hg⟩
      · rintro (⟨rfl, _⟩ | ⟨_, h⟩)
        · rfl
        · exact absurd rfl (h fields)
    | some x =>
      simp only [reduceCtorEq, false_iff, not_or, not_and]
      refine ⟨?_, fun _ h => h fields rfl⟩
      rintro _ ⟨f, h1, h2⟩
      cases h1
      rcases h2 with h2 | ⟨_, _, h3⟩
      · rw [hg] at h2; cases h2
      · exact h3
  | null => simp [Missing, eq_comm]
  | bool b => simp [Missing, eq_comm]
  | num q => simp [Missing, eq_comm]
  | str s => simp [Missing, eq_comm]
  | arr l => simp [Missing, eq_comm]

theorem at_cons_iff (j : Json) (k : Str) (ks : List Str) (v : Json) : At j (k :: ks) v ↔ ∃ x, At j [k] x ∧ At x ks v := by
  constructor
  · rintro ⟨f, x, h1, h2, h3⟩
    exact ⟨x, ⟨f, x, h1, h2, rfl⟩, h3⟩
  · rintro ⟨x, ⟨f, y, h1, h2, h3⟩, h4⟩
    exact ⟨f, y, h1, h2, by rw [show y = x from h3]; exact h4⟩

theorem at_unique {j : Json} {path : List Str} {v w : Json} (h : At j path v) (h' : At j path w) : v = w := by
  induction path generalizing j with
  | nil => exact (show j = v from h).symm.trans h'
  | cons k ks ih =>
    obtain ⟨f, x, h1, h2, h3⟩ := h
    obtain ⟨f', x', h1', h2', h3'⟩ := h'
    subst h1
    cases h1'
    rw [h2] at h2'
    cases h2'
    exact ih h3 h3'

theorem forEach_ok_iff {α β : Type} (f : α → Py β) (xs : List α) (ys : List β) :
    forEach f xs = .ok ys ↔ xs.map f = ys.map .ok := by
  induction xs generalizing ys with
  | nil => cases ys <;> simp [forEach]
  | cons x xs ih =>
    rw [forEach]
    cases hx : f x with
    | error e => cases ys <;> simp [hx]
    | ok y =>
      dsimp only
      cases hf : forEach f xs with
      | error e =>
        cases ys with
        | nil => simp
        | cons y' ys' =>
          have := (ih ys').not.1 (by rw [hf]; simp)
          simp only [reduceCtorEq, List.map_cons, List.cons.injEq, false_iff, not_and]
          exact fun _ => this
      | ok zs =>
        cases ys with
        | nil => simp
        | cons y' ys' =>
          have := ih ys'
          rw [hf] at this
          simp only [Except.ok.injEq, List.cons.injEq, List.map_cons, hx] at this ⊢
          rw [this]

theorem fromhexJson_ok_iff (j : Json) (b : Bytes) : fromhexJson j = .ok b ↔ ∃ t, j = .str t ∧ hexDecode t = some b := by
  unfold fromhexJson
  cases j with
  | str s =>
    dsimp only
    cases h : hexDecode s with
    | none => simp [h]
    | some b => simp [h]
  | _ => simp

theorem b64decodeJson_ok_iff (j : Json) (b : Bytes) : b64decodeJson j = .ok b ↔ ∃ t, j = .str t ∧ b64Decode t = .ok b := by
  unfold b64decodeJson
  cases j with
  | str s => simp
  | _ => simp

theorem b64Member_ok_iff (j : Json) (b : Bytes) : b64Member j = .ok b ↔ ∃ t, j = .str t ∧ b64Decode t = .ok b := by
  unfold b64Member
  cases j with
  | str s =>
    dsimp only
    cases h : b64Decode s with
    | error e => simp [h]
    | ok b => simp [h]
  | _ => simp

theorem strMember_ok_iff (j : Json) (t : Str) : strMember j = .ok t ↔ j = .str t := by
  unfold strMember
  cases j with
  | str s => simp
  | _ => simp

theorem validated_ok_iff {α : Type} (x : Option α) (a : α) : validated x = .ok a ↔ x = some a := by
  cases x <;> simp [validated]

theorem map_str_inj {l m : List Str} (h : l.map Json.str = m.map Json.str) : l = m :=
  List.map_injective_iff.2 (fun _ _ h => Json.str.inj h) h

/-- the loop `for h in hashes: bytes.fromhex(h)` -/
theorem hashes_ok_iff (x : Json) (hs : List Bytes) :
    (∃ l, iter x = .ok l ∧ forEach fromhexJson l = .ok hs) ↔ ∃ ts, Elements x ts ∧ ts.map hexDecode = hs.map some := by
  have key : ∀ l : List Json, forEach fromhexJson l = .ok hs ↔
      ∃ ts : List Str, l = ts.map .str ∧ ts.map hexDecode = hs.map some := by
    intro l
    rw [forEach_ok_iff]
    induction l generalizing hs with
    | nil =>
      constructor
      · intro h
        have : hs = [] := by cases hs <;> simp_all
        exact ⟨[], rfl, by rw [this]; rfl⟩
      · rintro ⟨ts, h1, h2⟩
        have : ts = [] := by cases ts <;> simp_all
        subst this
        cases hs <;> simp_all
    | cons a l ih =>
      cases hs with
      | nil =>
        constructor
        · intro h; simp at h
        · rintro ⟨ts, h1, h2⟩
          have : ts = [] := by cases ts <;> simp_all
          subst this
          simp at h1
      | cons b hs =>
        simp only [List.map_cons, List.cons.injEq]
        rw [fromhexJson_ok_iff, ih]
        constructor
        · rintro ⟨⟨t, h1, h2⟩, ts, h3, h4⟩
          exact ⟨t :: ts, by rw [h1, h3]; rfl, by simp [h2, h4]⟩
        · rintro ⟨ts, h1, h2⟩
          cases ts with
          | nil => simp at h1
          | cons t ts =>
            simp only [List.map_cons, List.cons.injEq] at h1 h2
            exact ⟨⟨t, h1.1, h2.1⟩, ts, h1.2, h2.2⟩
  constructor
  · rintro ⟨l, h1, h2⟩
    obtain ⟨ts, h3, h4⟩ := (key l).1 h2
    refine ⟨ts, ?_, h4⟩
    unfold iter at h1
    cases x with
    | arr items => cases h1; exact .inl (by rw [h3])
    | obj fields =>
      cases h1
      refine .inr (.inl ⟨fields, rfl, map_str_inj ?_⟩)
      rw [← h3, List.map_map]; rfl
    | str s =>
      cases h1
      refine .inr (.inr ⟨s, rfl, map_str_inj ?_⟩)
      rw [← h3, List.map_map]; rfl
    | null => cases h1
    | bool b => cases h1
    | num q => cases h1
  · rintro ⟨ts, h1, h2⟩
    refine ⟨ts.map .str, ?_, (key _).2 ⟨ts, rfl, h2⟩⟩
    rcases h1 with rfl | ⟨f, rfl, rfl⟩ | ⟨s, rfl, rfl⟩
    · rfl
    · rw [iter, List.map_map]; rfl
    · rw [iter, List.map_map]; rfl

/-! ## C68 on arbitrary documents -/

/-- **C68** An entry is read from a document exactly if the document describes it. -/
theorem C68_json_iff (libs : EntryLibs) (j : Json) (e : LogEntry) : fromV1Json libs j = .ok e ↔ DescribesV1 libs j e := by
  unfold fromV1Json DescribesV1
  rw [bind_ok_iff]
  constructor
  · rintro ⟨entries, h1, h⟩
    split at h
    · rename_i uuid entry
      have hj : j = .obj [(uuid, entry)] := by
        unfold items at h1
        cases j with
        | obj f => cases h1; rfl
        | _ => cases h1
      refine ⟨uuid, entry, hj, ?_⟩
      simp only [bind_ok_iff] at h
      obtain ⟨bt, hbt, body, hb, kv, hkv, h⟩ := h
      rw [validated_ok_iff] at hkv
      split at h
      · cases h
      · rename_i kind version
        simp only [bind_ok_iff, item_ok_iff, fromhexJson_ok_iff, b64Member_ok_iff, strMember_ok_iff, validated_ok_iff] at h
        obtain ⟨ver, hver, proof, hproof, lij, hlij, lidj, hlidj, lid, ⟨lidt, hlidt, hlid⟩, tj, htj, setj, hsetj, set,
          ⟨sett, hsett, hset⟩, pij, hpij, rj, hrj, root, ⟨rt, hrt, hroot⟩, sj, hsj, hj', hhj, hl, hhl, hs, hhs, cj, hcj, c,
          hc, pi, hpi, size, hsize, li, hli, time, htime, _, _, he⟩ := h
        cases he
        rw [item_ok_iff] at hbt
        obtain ⟨bt', rfl, hb⟩ := (b64decodeJson_ok_iff _ _).1 hb
        subst hlidt hsett hrt hc
        obtain ⟨ts, hts, hhs'⟩ := (hashes_ok_iff hj' hs).1 ⟨hl, hhl, hhs⟩
        have pv : ∀ {k : Str} {v : Json}, At ver [k] v → At entry ["verification".toList, k] v := fun h =>
          (at_cons_iff _ _ _ _).2 ⟨ver, hver, h⟩
        have pp : ∀ {k : Str} {v : Json}, At proof [k] v →
            At entry ["verification".toList, "inclusionProof".toList, k] v := fun h =>
          (at_cons_iff _ _ _ _).2 ⟨ver, hver, (at_cons_iff _ _ _ _).2 ⟨proof, hproof, h⟩⟩
        exact ⟨⟨bt', hbt, hb⟩, hkv, ⟨lij, hlij, hli⟩, ⟨lidt, hlidj, hlid⟩, ⟨tj, time, htj, htime, rfl⟩,
          ⟨sett, set, pv hsetj, hset, rfl⟩, _, c, rfl, rfl, ⟨pij, pp hpij, hpi⟩, ⟨sj, pp hsj, hsize⟩, ⟨rt, pp hrj, hroot⟩,
          ⟨hj', ts, pp hhj, hts, hhs'⟩, pp hcj⟩
    · cases h
  · rintro ⟨uuid, entry, rfl, ⟨bt, hbt, hb⟩, hkv, ⟨lij, hlij, hli⟩, ⟨lidt, hlidj, hlid⟩, ⟨tj, time, htj, htime, hte⟩,
      ⟨sett, set, hset1, hset, hse⟩, p, c, hp, hck, ⟨pij, hpij, hpi⟩, ⟨sj, hsj, hsize⟩, ⟨rt, hrj, hroot⟩,
      ⟨hj', ts, hhj, hts, hhs'⟩, hcj⟩
    refine ⟨[(uuid, entry)], rfl, ?_⟩
    simp only [bind_ok_iff]
    refine ⟨_, (item_ok_iff _ _ _).2 hbt, e.body, (b64decodeJson_ok_iff _ _).2 ⟨_, rfl, hb⟩, _,
      (validated_ok_iff _ _).2 hkv, ?_⟩
    simp only [bind_ok_iff, item_ok_iff, fromhexJson_ok_iff, b64Member_ok_iff, strMember_ok_iff, validated_ok_iff]
    obtain ⟨ver, hver, hset2⟩ := (at_cons_iff _ _ _ _).1 hset1
    have pp : ∀ {k : Str} {v : Json}, At entry ["verification".toList, "inclusionProof".toList, k] v →
        ∃ proof, At ver ["inclusionProof".toList] proof ∧ At proof [k] v := by
      intro k v h
      obtain ⟨ver', hver', h⟩ := (at_cons_iff _ _ _ _).1 h
      have := at_unique hver hver'
      subst this
      exact (at_cons_iff _ _ _ _).1 h
    obtain ⟨proof, hproof, hpij⟩ := pp hpij
    have pq : ∀ {k : Str} {v : Json}, At entry ["verification".toList, "inclusionProof".toList, k] v → At proof [k] v := by
      intro k v h
      obtain ⟨proof', h1, h2⟩ := pp h
      have := at_unique hproof h1
      subst this
      exact h2
    obtain ⟨hl, hhl, hhs⟩ := (hashes_ok_iff hj' p.hashes).2 ⟨ts, hts, hhs'⟩
    refine ⟨ver, hver, proof, hproof, lij, hlij, _, hlidj, e.logId, ⟨lidt, rfl, hlid⟩, tj, htj, _, hset2, set,
      ⟨sett, rfl, hset⟩, pij, hpij, _, pq hrj, p.rootHash, ⟨rt, rfl, hroot⟩, sj, pq hsj, hj', pq hhj, hl, hhl, p.hashes,
      hhs, _, pq hcj, c, rfl, p.logIndex, hpi, p.treeSize, hsize, e.logIndex, hli, time, htime, (), rfl, ?_⟩
    obtain ⟨li, lid, kind, version, it, pr, prf, body⟩ := e
    obtain ⟨a1, a2, a3, a4, a5⟩ := p
    simp only at hp hck hte hse
    subst hp hck hte hse
    rfl

/-! ## Responses -/

theorem checked_error {α : Type} {r : Response} (h : ErrorStatus r.status) (handler k : Py α) :
    r.checked handler k = handler := by
  have h : 400 ≤ r.status ∧ r.status < 600 := ⟨h.1, Nat.lt_succ_of_le h.2⟩
  unfold Response.checked Response.raiseForStatus
  rw [if_pos h]
  rfl

theorem checked_ok {α : Type} {r : Response} (h : ¬ ErrorStatus r.status) (handler k : Py α) : r.checked handler k = k := by
  have h : ¬ (400 ≤ r.status ∧ r.status < 600) := fun h' => h ⟨h'.1, Nat.le_of_lt_succ h'.2⟩
  unfold Response.checked Response.raiseForStatus
  rw [if_neg h]

theorem checked_ok_iff {α : Type} (r : Response) (e : Exc) (k : Py α) (a : α) :
    r.checked (.error e) k = .ok a ↔ ¬ ErrorStatus r.status ∧ k = .ok a := by
  by_cases h : ErrorStatus r.status
  · rw [checked_error h]; simp [h]
  · rw [checked_ok h]; simp [h]

theorem truthy_error {r : Response} (h : ErrorStatus r.status) : r.truthy = false := by
  have h : 400 ≤ r.status ∧ r.status < 600 := ⟨h.1, Nat.lt_succ_of_le h.2⟩
  unfold Response.truthy Response.raiseForStatus
  rw [if_pos h]

theorem json_ok_iff (r : Response) (j : Json) : r.json = .ok j ↔ r.json? = some j := by
  unfold Response.json
  cases r.json? <;> simp

theorem fulcioMessage_error {r : Response} (h : ErrorStatus r.status) (loads : Str → Option Json) :
    fulcioMessage loads r = .ok none := by
  unfold fulcioMessage
  rw [truthy_error h]
  rfl

/-- **C80** No client returns anything for a response with an error status, whatever its body: each raises the exception
documented for it. -/
theorem C80_error_status_raises (r : Response) (h : ErrorStatus r.status) :
    rekorLogGet (.ok r) = .error .rekorClient ∧
    (∀ libs, rekorEntriesPost libs (.ok r) = .error .rekorClient) ∧
    (∀ libs send uuid index q, entryQuery uuid index = .ok q → send q = .ok r →
      rekorEntriesGet libs send uuid index = .error .rekorClient) ∧
    (∀ libs, rekorRetrieve libs (.ok r) = .error .rekorClient) ∧
    (∀ fromDict, rekorV2CreateEntry fromDict (.ok r) = .error .rekorClient) ∧
    (∀ loads loadPem, fulcioSigningCert loads loadPem (.ok r) = .error .fulcioClient) ∧
    (∀ loadPem, fulcioTrustBundle loadPem (.ok r) = .error .fulcioClient) ∧
    (∀ build send decode sig, (∀ q, send q = .ok r) → tsaRequest build send decode sig = .error .timestamp) ∧
    issuerInit (.ok r) = .error .issuer ∧
    ∀ libs now clientId, tokenExchange libs now clientId (.ok r) = .error .identity := by
  refine ⟨checked_error h _ _, fun _ => checked_error h _ _, ?_, ?_, fun _ => checked_error h _ _, ?_,
    fun _ => checked_error h _ _, ?_, checked_error h _ _, fun _ _ _ => checked_error h _ _⟩
  · intro libs send uuid index q hq hs
    unfold rekorEntriesGet
    rw [hq]
    change readEntry libs (send q) = _
    rw [hs]
    exact checked_error h _ _
  · intro libs
    refine (checked_error h _ _).trans ?_
    rw [truthy_error h]
    rfl
  · intro loads loadPem
    refine (checked_error h _ _).trans ?_
    rw [fulcioMessage_error h]
  · intro build send decode sig hs
    unfold tsaRequest
    cases build sig with
    | none => rfl
    | some req =>
      dsimp only
      rw [hs req]
      have h : 400 ≤ r.status ∧ r.status < 600 := ⟨h.1, Nat.lt_succ_of_le h.2⟩
      have : r.raiseForStatus = .error .requestsHttp := by rw [Response.raiseForStatus, if_pos h]
      simp only [bind, Except.bind, this]
      rfl

/-- **C80** What the Rekor clients return was described by the JSON document of a response without an error status. -/
theorem C80_rekor_ok_iff (libs : EntryLibs) (exchange : Py Response) (e : LogEntry) :
    rekorEntriesPost libs exchange = .ok e ↔
      ∃ r j, exchange = .ok r ∧ ¬ ErrorStatus r.status ∧ r.json? = some j ∧ DescribesV1 libs j e := by
  unfold rekorEntriesPost readEntry
  rw [bind_ok_iff]
  constructor
  · rintro ⟨r, hr, h⟩
    obtain ⟨hs, h⟩ := (checked_ok_iff _ _ _ _).1 h
    obtain ⟨j, hj, h⟩ := (bind_ok_iff _ _ _).1 h
    exact ⟨r, j, hr, hs, (json_ok_iff _ _).1 hj, (C68_json_iff _ _ _).1 h⟩
  · rintro ⟨r, j, hr, hs, hj, h⟩
    exact ⟨r, hr, (checked_ok_iff _ _ _ _).2 ⟨hs, (bind_ok_iff _ _ _).2 ⟨j, (json_ok_iff _ _).2 hj,
      (C68_json_iff _ _ _).2 h⟩⟩⟩

theorem entryQuery_exists {uuid : Option Str} {index : Option Int} {q : EntryQuery} (h : entryQuery uuid index = .ok q) :
    (∃ u, uuid = some u ∧ q = .byUuid u) ∨ (uuid = none ∧ ∃ i, index = some i ∧ q = .byIndex i) := by
  unfold entryQuery at h
  split at h
  · cases h
  · cases uuid with
    | some u => cases h; exact .inl ⟨u, rfl, rfl⟩
    | none =>
      cases index with
      | some i => cases h; exact .inr ⟨rfl, i, rfl, rfl⟩
      | none => cases h

/-- **C80** An entry that is fetched was described by the response to the one request made for it. -/
theorem C80_rekor_get_ok_iff (libs : EntryLibs) (send : EntryQuery → Py Response) (uuid : Option Str) (index : Option Int)
    (e : LogEntry) :
    rekorEntriesGet libs send uuid index = .ok e ↔
      ∃ q r j, entryQuery uuid index = .ok q ∧ send q = .ok r ∧ ¬ ErrorStatus r.status ∧ r.json? = some j ∧
        DescribesV1 libs j e := by
  unfold rekorEntriesGet
  rw [bind_ok_iff]
  constructor
  · rintro ⟨q, hq, h⟩
    obtain ⟨r, j, h⟩ := (C80_rekor_ok_iff libs (send q) e).1 h
    exact ⟨q, r, j, hq, h⟩
  · rintro ⟨q, r, j, hq, h⟩
    exact ⟨q, hq, (C80_rekor_ok_iff libs (send q) e).2 ⟨r, j, h⟩⟩

/-- **C80** The same for Rekor v2; every entry has a proof with a checkpoint. -/
theorem C80_rekor_v2_ok_iff (fromDict : Json → Option LogEntry) (exchange : Py Response) (e : LogEntry) :
    rekorV2CreateEntry fromDict exchange = .ok e ↔
      ∃ r j, exchange = .ok r ∧ ¬ ErrorStatus r.status ∧ r.json? = some j ∧ fromDict j = some e ∧
        ∃ p c, e.proof = some p ∧ p.checkpoint = some c := by
  have hv : ∀ e : LogEntry, e.validate = .ok () ↔ ∃ p c, e.proof = some p ∧ p.checkpoint = some c := by
    intro e
    unfold LogEntry.validate
    cases e.proof with
    | none => simp
    | some p => cases h : p.checkpoint <;> simp [h]
  unfold rekorV2CreateEntry
  rw [bind_ok_iff]
  constructor
  · rintro ⟨r, hr, h⟩
    obtain ⟨hs, h⟩ := (checked_ok_iff _ _ _ _).1 h
    simp only [bind_ok_iff, json_ok_iff, validated_ok_iff] at h
    obtain ⟨j, hj, e', he, _, h1, h2⟩ := h
    cases h2
    exact ⟨r, j, hr, hs, hj, he, (hv _).1 h1⟩
  · rintro ⟨r, j, hr, hs, hj, he, h⟩
    refine ⟨r, hr, (checked_ok_iff _ _ _ _).2 ⟨hs, ?_⟩⟩
    simp only [bind_ok_iff, json_ok_iff, validated_ok_iff]
    exact ⟨j, hj, e, he, (), (hv _).2 h, rfl⟩

/-- **C80** What is known about a log is what the response says. -/
theorem C80_log_info_ok_iff (exchange : Py Response) (i : LogInfo) :
    rekorLogGet exchange = .ok i ↔
      ∃ r, exchange = .ok r ∧ ¬ ErrorStatus r.status ∧ r.json? = some i.raw ∧ At i.raw ["rootHash".toList] i.rootHash ∧
        At i.raw ["treeSize".toList] i.treeSize ∧ At i.raw ["signedTreeHead".toList] i.signedTreeHead ∧
        At i.raw ["treeID".toList] i.treeId := by
  unfold rekorLogGet LogInfo.fromResponse
  simp only [bind_ok_iff, checked_ok_iff, json_ok_iff, item_ok_iff]
  constructor
  · rintro ⟨r, hr, hs, j, hj, a, ha, b, hb, c, hc, d, hd, h⟩
    cases h
    exact ⟨r, hr, hs, hj, ha, hb, hc, hd⟩
  · rintro ⟨r, hr, hs, hj, ha, hb, hc, hd⟩
    exact ⟨r, hr, hs, i.raw, hj, _, ha, _, hb, _, hc, _, hd, rfl⟩

/-- the documents a search returns, with the entries they describe -/
def AllDescribe (libs : EntryLibs) (j : Json) (entries : List LogEntry) : Prop :=
  ∃ l, j = .arr l ∧ List.Forall₂ (DescribesV1 libs) l entries

theorem describes_obj {libs : EntryLibs} {j : Json} {e : LogEntry} (h : DescribesV1 libs j e) : ∃ f, j = .obj f := by
  obtain ⟨u, en, h, _⟩ := h
  exact ⟨_, h⟩

/-- **C49** On arbitrary documents: a search returns an entry exactly if the response has no error status and is a list of
descriptions of entries, of which it is the oldest, and the first among equally old ones. -/
theorem C49_search_http_iff (libs : EntryLibs) (exchange : Py Response) (e : LogEntry) :
    rekorRetrieve libs exchange = .ok (some e) ↔
      ∃ r j entries, exchange = .ok r ∧ ¬ ErrorStatus r.status ∧ r.json? = some j ∧ AllDescribe libs j entries ∧
        retrieve (.results (entries.map .ok)) = .ok (some e) := by
  have hmap : ∀ (l : List Json) (entries : List LogEntry), List.Forall₂ (DescribesV1 libs) l entries →
      l.map (fromV1Json libs) = entries.map .ok := by
    intro l entries h
    induction h with
    | nil => rfl
    | cons h _ ih => rw [List.map_cons, List.map_cons, (C68_json_iff _ _ _).2 h, ih]
  have hok : ∀ (l : List Json) (best res : Option LogEntry), oldest (l.map (fromV1Json libs)) best = .ok res →
      ∃ entries, List.Forall₂ (DescribesV1 libs) l entries := by
    intro l
    induction l with
    | nil => intro _ _ _; exact ⟨[], .nil⟩
    | cons x l ih =>
      intro best res h
      rw [List.map_cons, RekorClient.oldest.eq_def] at h
      dsimp only at h
      cases hx : fromV1Json libs x with
      | error e' => rw [hx] at h; cases h
      | ok e' =>
        rw [hx] at h
        have hrest : ∃ best', oldest (l.map (fromV1Json libs)) best' = .ok res := by
          dsimp only at h
          split at h
          · cases h
          · split at h
            · exact ⟨_, h⟩
            · split at h
              · exact ⟨_, h⟩
              · exact ⟨_, h⟩
        obtain ⟨b', hb'⟩ := hrest
        obtain ⟨es, hes⟩ := ih b' res hb'
        exact ⟨e' :: es, .cons ((C68_json_iff _ _ _).1 hx) hes⟩
  unfold rekorRetrieve
  rw [bind_ok_iff]
  constructor
  · rintro ⟨r, hr, h⟩
    by_cases hs : ErrorStatus r.status
    · rw [checked_error hs, truthy_error hs] at h; cases h
    · rw [checked_ok hs] at h
      simp only [bind_ok_iff, json_ok_iff] at h
      obtain ⟨j, hj, l, hl, h⟩ := h
      obtain ⟨entries, hes⟩ := hok l _ _ h
      refine ⟨r, j, entries, hr, hs, hj, ⟨l, ?_, hes⟩, ?_⟩
      · cases j with
        | arr items => cases hl; rfl
        | obj f =>
          cases hl
          cases f with
          | nil => cases h
          | cons a f =>
            cases hes with
            | cons h1 _ => obtain ⟨_, h1⟩ := describes_obj h1; cases h1
        | str t =>
          cases hl
          cases t with
          | nil => cases h
          | cons a t =>
            cases hes with
            | cons h1 _ => obtain ⟨_, h1⟩ := describes_obj h1; cases h1
        | null => cases hl
        | bool b => cases hl
        | num q => cases hl
      · rw [retrieve, ← hmap l entries hes]; exact h
  · rintro ⟨r, j, entries, hr, hs, hj, ⟨l, rfl, hes⟩, h⟩
    refine ⟨r, hr, ?_⟩
    rw [checked_ok hs]
    simp only [bind_ok_iff, json_ok_iff]
    refine ⟨_, hj, l, rfl, ?_⟩
    rw [hmap l entries hes]
    exact h

/-- how a Rekor v1 log renders an entry as JSON -/
def renderV1Json (uuid : Str) (logIndex : Int) (logId : Bytes) (time : Int) (set body : Bytes) (p : Merkle.InclusionProof)
    (checkpoint : Str) : Json :=
  .obj [(uuid, .obj [
    ("body".toList, .str (b64Encode body)),
    ("integratedTime".toList, .num time),
    ("logID".toList, .str (hexEncode logId)),
    ("logIndex".toList, .num logIndex),
    ("verification".toList, .obj [
      ("inclusionProof".toList, .obj [
        ("checkpoint".toList, .str checkpoint),
        ("hashes".toList, .arr (p.hashes.map fun h => .str (hexEncode h))),
        ("logIndex".toList, .num p.logIndex),
        ("rootHash".toList, .str (hexEncode p.rootHash)),
        ("treeSize".toList, .num p.treeSize)]),
      ("signedEntryTimestamp".toList, .str (b64Encode set))])])]

/-- **C68** Reading back the JSON document that a log renders gives the same entry. -/
theorem C68_json_roundtrip (libs : EntryLibs) (hint : ∀ n : Int, libs.protoInt (libs.str (.num n)) = some n)
    (hnat : ∀ n : Nat, libs.protoNat (libs.str (.num n)) = some n) (uuid : Str) (logIndex : Int) (logId : Bytes)
    (time : Int) (set body : Bytes) (p : Merkle.InclusionProof) (checkpoint : Str) (kind version : Str)
    (hp : p.checkpoint = some checkpoint) (hk : libs.parseEntry body = some (some (kind, version))) :
    fromV1Json libs (renderV1Json uuid logIndex logId time set body p checkpoint) =
      .ok ⟨logIndex, logId, kind, version, some time, some set, some p, body⟩ := by
  rw [C68_json_iff]
  have hv : ∀ {f k v} {g : List (Str × Json)}, Dict.get? f "verification".toList = some (.obj g) → Dict.get? g k = some v →
      At (.obj f) ["verification".toList, k] v := fun h1 h2 => ⟨_, _, rfl, h1, _, _, rfl, h2, rfl⟩
  have hp' : ∀ {f k v} {g g' : List (Str × Json)}, Dict.get? f "verification".toList = some (.obj g) →
      Dict.get? g "inclusionProof".toList = some (.obj g') → Dict.get? g' k = some v →
      At (.obj f) ["verification".toList, "inclusionProof".toList, k] v :=
    fun h1 h2 h3 => ⟨_, _, rfl, h1, _, _, rfl, h2, _, _, rfl, h3, rfl⟩
  refine ⟨uuid, _, rfl, ⟨_, ⟨_, _, rfl, rfl, rfl⟩, C54_base64_roundtrip _⟩, hk, ⟨_, ⟨_, _, rfl, rfl, rfl⟩, hint _⟩,
    ⟨_, ⟨_, _, rfl, rfl, rfl⟩, C54_hex_roundtrip _⟩, ⟨_, time, ⟨_, _, rfl, rfl, rfl⟩, hint _, rfl⟩,
    ⟨_, set, hv rfl rfl, C54_base64_roundtrip _, rfl⟩, p, checkpoint, rfl, hp, ⟨_, hp' rfl rfl rfl, hnat _⟩,
    ⟨_, hp' rfl rfl rfl, hnat _⟩, ⟨_, hp' rfl rfl rfl, C54_hex_roundtrip _⟩,
    ⟨_, p.hashes.map hexEncode, hp' rfl rfl rfl, .inl (by rw [List.map_map]; rfl), ?_⟩, hp' rfl rfl rfl⟩
  rw [List.map_map]
  exact List.map_congr_left fun h _ => C54_hex_roundtrip h

/-- libraries for the examples: every body is an attestation; numbers are written in decimal -/
def exEntryLibs : EntryLibs where
  parseEntry := fun _ => some (some ("dsse".toList, "0.0.1".toList))
  str := fun j => match j with | .num q => decimalInt q.num | _ => []
  protoInt := fun s => match s with | '-' :: r => some (-(decimalVal r : Int)) | r => some (decimalVal r)
  protoNat := fun s => some (decimalVal s)

theorem exEntryLibs_nat (n : Nat) : exEntryLibs.protoNat (exEntryLibs.str (.num n)) = some n := by
  show some (decimalVal (decimalInt ((n : ℚ)).num)) = some n
  rw [show ((n : ℚ)).num = (n : Int) from rfl]
  exact congrArg some (decimalVal_decimal n)

theorem exEntryLibs_int (n : Int) : exEntryLibs.protoInt (exEntryLibs.str (.num n)) = some n := by
  show exEntryLibs.protoInt (decimalInt ((n : ℚ)).num) = some n
  rw [show ((n : ℚ)).num = n from rfl]
  cases n with
  | ofNat n =>
    show exEntryLibs.protoInt (decimal n) = _
    have hd := decimal_digits n
    have hv := decimalVal_decimal n
    generalize decimal n = s at hd hv
    unfold exEntryLibs
    dsimp only
    split
    · exact absurd (hd '-' (by simp)) (by decide)
    · rw [hv]; rfl
  | negSucc n =>
    show some (-(decimalVal (decimal (n + 1)) : Int)) = _
    rw [decimalVal_decimal]
    rfl

/-- **C68** is not vacuous: reading back with these libraries -/
example (logIndex time : Int) (logId set body : Bytes) (p : Merkle.InclusionProof) (c : Str) (hp : p.checkpoint = some c) :
    fromV1Json exEntryLibs (renderV1Json "u".toList logIndex logId time set body p c) =
      .ok ⟨logIndex, logId, "dsse".toList, "0.0.1".toList, some time, some set, some p, body⟩ :=
  C68_json_roundtrip exEntryLibs exEntryLibs_int exEntryLibs_nat _ _ _ _ _ _ _ _ _ _ hp rfl

/-- an entry that is read from a response, and the same response with an error status -/
example : rekorEntriesPost exEntryLibs
      (.ok ⟨201, [], [], some (renderV1Json "u".toList 3 [7] 100 [9] [1] ⟨0, [2], 1, [[3], [4]], some "c".toList⟩ "c".toList)⟩) =
    .ok ⟨3, [7], "dsse".toList, "0.0.1".toList, some 100, some [9], some ⟨0, [2], 1, [[3], [4]], some "c".toList⟩, [1]⟩ ∧
    rekorEntriesPost exEntryLibs
      (.ok ⟨409, [], [], some (renderV1Json "u".toList 3 [7] 100 [9] [1] ⟨0, [2], 1, [[3], [4]], some "c".toList⟩ "c".toList)⟩) =
    .error .rekorClient := ⟨rfl, rfl⟩

/-- a search with two results -/
example : ∃ e, rekorRetrieve exEntryLibs (.ok ⟨200, [], [], some (.arr [
      renderV1Json "u".toList 3 [7] 100 [9] [1] ⟨0, [2], 1, [], some "c".toList⟩ "c".toList,
      renderV1Json "v".toList 3 [7] 0 [9] [1] ⟨0, [2], 1, [], some "c".toList⟩ "c".toList])⟩) = .ok (some e) ∧
    e.integratedTime = some 0 := ⟨_, rfl, rfl⟩

/-- Rekor v2, and information about a log -/
example (e : LogEntry) (h : e.proof = some ⟨0, [2], 1, [], some "c".toList⟩) :
    rekorV2CreateEntry (fun _ => some e) (.ok ⟨201, [], [], some .null⟩) = .ok e :=
  (C80_rekor_v2_ok_iff _ _ _).2 ⟨_, _, rfl, fun h => absurd h.1 (by decide), rfl, rfl, _, _, h, rfl⟩

end Sigstore.Props
