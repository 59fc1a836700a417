import Verif.Model.RekorClient
import Verif.Props.Codecs
import Mathlib.Data.List.Induction

/-!
# C49, C50, C56, C68: the Rekor client
-/

namespace Sigstore.Props

open Sigstore.LogEntry Sigstore.RekorClient

/-! ## C50 -/

/-- **C50** refuted: index 0 alone is rejected; an empty uuid wins over an index; a uuid together with index 0 is
accepted. -/
theorem C50_refuted :
    entryQuery none (some 0) = .error .valueError ∧
    (∀ i : Int, i ≠ 0 → entryQuery (some []) (some i) = .ok (.byUuid [])) ∧
    (∀ u : Str, u ≠ [] → entryQuery (some u) (some 0) = .ok (.byUuid u)) := by
  refine ⟨by decide, fun i hi => ?_, fun u hu => ?_⟩
  · simp [entryQuery, uuidTruthy, indexTruthy, hi]
  · simp [entryQuery, uuidTruthy, indexTruthy, hu]

/-- **C50** (partial: excludes empty uuids and index 0) For a non-empty uuid and a non-zero index, the request is made exactly
when one of them is given, for that one; otherwise `ValueError`. -/
theorem C50_query_partial (uuid : Option Str) (index : Option Int) (hu : uuid ≠ some []) (hi : index ≠ some 0) :
    (∀ q, entryQuery uuid index = .ok q ↔
      (∃ u, uuid = some u ∧ index = none ∧ q = .byUuid u) ∨ (∃ i, uuid = none ∧ index = some i ∧ q = .byIndex i)) ∧
    (∀ e, entryQuery uuid index = .error e → e = .valueError) := by
  rcases uuid with _ | u <;> rcases index with _ | i
  · simp [entryQuery, uuidTruthy, indexTruthy, eq_comm]
  · have : i ≠ 0 := fun h => hi (by rw [h])
    simp [entryQuery, uuidTruthy, indexTruthy, this, eq_comm]
  · have : u ≠ [] := fun h => hu (by rw [h])
    simp [entryQuery, uuidTruthy, indexTruthy, this, eq_comm]
  · have h1 : i ≠ 0 := fun h => hi (by rw [h])
    have h2 : u ≠ [] := fun h => hu (by rw [h])
    simp [entryQuery, uuidTruthy, indexTruthy, h1, h2, eq_comm]

/-- **C50** complete description of the code: what is requested for every combination. -/
theorem C50_query_iff (uuid : Option Str) (index : Option Int) (q : EntryQuery) :
    entryQuery uuid index = .ok q ↔
      (∃ u, uuid = some u ∧ q = .byUuid u ∧ (u ≠ [] ↔ index = none ∨ index = some 0)) ∨
      (∃ i, uuid = none ∧ index = some i ∧ i ≠ 0 ∧ q = .byIndex i) := by
  rcases uuid with _ | u <;> rcases index with _ | i
  · simp [entryQuery, uuidTruthy, indexTruthy]
  · by_cases h : i = 0
    · simp [entryQuery, uuidTruthy, indexTruthy, h]
    · simp [entryQuery, uuidTruthy, indexTruthy, h, eq_comm]
  · by_cases h : u = []
    · simp [entryQuery, uuidTruthy, indexTruthy, h]
    · simp [entryQuery, uuidTruthy, indexTruthy, h, eq_comm]
  · by_cases h : u = [] <;> by_cases h' : i = 0 <;>
      simp [entryQuery, uuidTruthy, indexTruthy, h, h', eq_comm]

example : entryQuery none (some 7) = .ok (.byIndex 7) := by decide

/-! ## C49 -/

/-- `e` is the first of the entries with the smallest integrated time -/
def FirstOldest (entries : List LogEntry) (e : LogEntry) : Prop :=
  ∃ t before after, e.integratedTime = some t ∧ entries = before ++ e :: after ∧
    (∀ x ∈ before, ∃ u, x.integratedTime = some u ∧ t < u) ∧
    (∀ x ∈ after, ∃ u, x.integratedTime = some u ∧ t ≤ u)

theorem oldest_ok_iff : ∀ (l : List (Py LogEntry)) (best : LogEntry) (tb : Int) (r : Option LogEntry),
    best.integratedTime = some tb →
    (oldest l (some best) = .ok r ↔
      ∃ entries, l = entries.map .ok ∧ (∀ x ∈ entries, x.integratedTime ≠ none) ∧
        ∃ e, r = some e ∧ FirstOldest (best :: entries) e) := by
  intro l
  induction l with
  | nil =>
    intro best tb r hb
    rw [oldest]
    constructor
    · intro h
      cases h
      exact ⟨[], rfl, by simp, best, rfl, tb, [], [], hb, rfl, by simp, by simp⟩
    · rintro ⟨entries, h1, _, e, rfl, t, bf, af, ht, h2, h3, h4⟩
      cases entries with
      | cons a b => simp at h1
      | nil =>
        cases bf with
        | nil => cases h2; rfl
        | cons a b => simp at h2
  | cons x l ih =>
    intro best tb r hb
    rw [oldest.eq_def]
    dsimp only
    cases x with
    | error e =>
      dsimp only
      simp only [reduceCtorEq, false_iff]
      rintro ⟨entries, h1, _⟩
      cases entries <;> simp at h1
    | ok x =>
      dsimp only
      cases hx : x.integratedTime with
      | none =>
        dsimp only
        simp only [reduceCtorEq, false_iff]
        rintro ⟨entries, h1, h2, _⟩
        cases entries with
        | nil => simp at h1
        | cons a as =>
          simp only [List.map_cons, List.cons.injEq, Except.ok.injEq] at h1
          exact h2 a (by simp) (h1.1 ▸ hx)
      | some t =>
        dsimp only
        rw [hb, Option.getD_some]
        have hcons : ∀ P : List LogEntry → Prop, (∃ entries, (Except.ok x : Py LogEntry) :: l = entries.map .ok ∧ P entries) ↔
            ∃ entries, l = entries.map .ok ∧ P (x :: entries) := by
          intro P
          constructor
          · rintro ⟨entries, h1, h2⟩
            cases entries with
            | nil => simp at h1
            | cons a as =>
              simp only [List.map_cons, List.cons.injEq, Except.ok.injEq] at h1
              obtain ⟨rfl, h1⟩ := h1
              exact ⟨as, h1, h2⟩
          · rintro ⟨entries, h1, h2⟩
            exact ⟨x :: entries, by rw [h1]; rfl, h2⟩
        rw [hcons]
        by_cases hlt : t < tb
        · rw [if_pos hlt, ih x t r hx]
          refine exists_congr fun entries => and_congr_right fun _ => and_congr (by simp [hx]) ?_
          refine exists_congr fun e => and_congr_right fun _ => ?_
          constructor
          · rintro ⟨t', bf, af, h1, h2, h3, h4⟩
            refine ⟨t', best :: bf, af, h1, by rw [h2]; rfl, ?_, h4⟩
            intro y hy
            rcases List.mem_cons.1 hy with rfl | hy
            · refine ⟨tb, hb, ?_⟩
              cases bf with
              | nil =>
                obtain ⟨rfl, _⟩ := List.cons.inj h2
                rw [hx] at h1; cases h1; exact hlt
              | cons a b =>
                obtain ⟨rfl, _⟩ := List.cons.inj h2
                obtain ⟨u, hu, hu'⟩ := h3 x (by simp)
                rw [hx] at hu; cases hu; omega
            · exact h3 y hy
          · rintro ⟨t', bf, af, h1, h2, h3, h4⟩
            cases bf with
            | nil =>
              obtain ⟨rfl, rfl⟩ := List.cons.inj h2
              obtain ⟨u, hu, hu'⟩ := h4 x (by simp)
              rw [hx] at hu; cases hu
              rw [hb] at h1; cases h1
              omega
            | cons a b =>
              obtain ⟨rfl, h2'⟩ := List.cons.inj h2
              exact ⟨t', b, af, h1, h2', fun y hy => h3 y (by simp [hy]), h4⟩
        · rw [if_neg hlt, ih best tb r hb]
          refine exists_congr fun entries => and_congr_right fun _ => and_congr (by simp [hx]) ?_
          refine exists_congr fun e => and_congr_right fun _ => ?_
          constructor
          · rintro ⟨t', bf, af, h1, h2, h3, h4⟩
            cases bf with
            | nil =>
              obtain ⟨rfl, rfl⟩ := List.cons.inj h2
              rw [hb] at h1; cases h1
              refine ⟨tb, [], x :: entries, hb, rfl, by simp, ?_⟩
              intro y hy
              rcases List.mem_cons.1 hy with rfl | hy
              · exact ⟨t, hx, by omega⟩
              · exact h4 y hy
            | cons a b =>
              obtain ⟨rfl, rfl⟩ := List.cons.inj h2
              refine ⟨t', best :: x :: b, af, h1, rfl, ?_, h4⟩
              obtain ⟨u, hu, hu'⟩ := h3 best (by simp)
              rw [hb] at hu; cases hu
              intro y hy
              rcases List.mem_cons.1 hy with rfl | hy
              · exact ⟨tb, hb, hu'⟩
              · rcases List.mem_cons.1 hy with rfl | hy
                · exact ⟨t, hx, by omega⟩
                · exact h3 y (by simp [hy])
          · rintro ⟨t', bf, af, h1, h2, h3, h4⟩
            cases bf with
            | nil =>
              obtain ⟨rfl, rfl⟩ := List.cons.inj h2
              exact ⟨t', [], entries, h1, rfl, by simp, fun y hy => h4 y (by simp [hy])⟩
            | cons a b =>
              obtain ⟨rfl, h2'⟩ := List.cons.inj h2
              clear h2
              cases b with
              | nil =>
                obtain ⟨rfl, rfl⟩ := List.cons.inj h2'
                obtain ⟨u, hu, hu'⟩ := h3 best (by simp)
                rw [hb] at hu; cases hu
                rw [hx] at h1; cases h1
                omega
              | cons c d =>
                obtain ⟨rfl, rfl⟩ := List.cons.inj h2'
                refine ⟨t', best :: d, af, h1, rfl, ?_, h4⟩
                intro y hy
                rcases List.mem_cons.1 hy with rfl | hy
                · exact h3 _ (by simp)
                · exact h3 y (by simp [hy])

/-- **C49** (partial: the claim about 404 is refuted by `C49_not_found_raises`) From a response with results, the client returns
the first of the oldest entries, nothing if there are none, and raises if a result is malformed or has no time. -/
theorem C49_oldest_partial (l : List (Py LogEntry)) (r : Option LogEntry) :
    retrieve (.results l) = .ok r ↔
      ∃ entries, l = entries.map .ok ∧ (∀ x ∈ entries, x.integratedTime ≠ none) ∧
        ((entries = [] ∧ r = none) ∨ ∃ e, r = some e ∧ FirstOldest entries e) := by
  rw [retrieve]
  cases l with
  | nil =>
    rw [oldest]
    constructor
    · intro h; cases h; exact ⟨[], rfl, by simp, .inl ⟨rfl, rfl⟩⟩
    · rintro ⟨entries, h1, _, h2⟩
      cases entries with
      | cons a b => simp at h1
      | nil =>
        rcases h2 with ⟨_, rfl⟩ | ⟨e, rfl, _, bf, af, _, h, _⟩
        · rfl
        · cases bf <;> simp at h
  | cons x l =>
    rw [oldest.eq_def]
    dsimp only
    cases x with
    | error e =>
      dsimp only
      simp only [reduceCtorEq, false_iff]
      rintro ⟨entries, h1, _⟩
      cases entries <;> simp at h1
    | ok x =>
      dsimp only
      cases hx : x.integratedTime with
      | none =>
        dsimp only
        simp only [reduceCtorEq, false_iff]
        rintro ⟨entries, h1, h2, _⟩
        cases entries with
        | nil => simp at h1
        | cons a as =>
          simp only [List.map_cons, List.cons.injEq, Except.ok.injEq] at h1
          exact h2 a (by simp) (h1.1 ▸ hx)
      | some t =>
        dsimp only
        rw [oldest_ok_iff l x t r hx]
        constructor
        · rintro ⟨entries, rfl, h2, h3⟩
          refine ⟨x :: entries, rfl, ?_, .inr h3⟩
          intro y hy
          rcases List.mem_cons.1 hy with rfl | hy
          · simp [hx]
          · exact h2 y hy
        · rintro ⟨entries, h1, h2, h3⟩
          cases entries with
          | nil => simp at h1
          | cons a as =>
            simp only [List.map_cons, List.cons.injEq, Except.ok.injEq] at h1
            obtain ⟨rfl, rfl⟩ := h1
            refine ⟨as, rfl, fun y hy => h2 y (by simp [hy]), ?_⟩
            rcases h3 with ⟨h, _⟩ | h3
            · simp at h
            · exact h3

/-- **C49** refuted: when the log has no entry (HTTP 404), as for every error status, the client raises
`RekorClientError` instead of returning `None`. -/
theorem C49_not_found_raises (code : Nat) : retrieve (.status code) = .error .rekorClient := by
  rw [retrieve]
  by_cases h : code = 404
  · subst h; decide
  · simp [h]

/-- an entry with a time -/
def exTimed (i t : Int) : LogEntry := ⟨i, [], [], [], some t, none, none, []⟩

example : retrieve (.results [.ok (exTimed 1 30), .ok (exTimed 2 10), .ok (exTimed 3 10)]) = .ok (some (exTimed 2 10)) := by
  decide

/-! ## C68 -/

theorem hexAll_hexEncode (l : List Bytes) : hexAll (l.map hexEncode) = some l := by
  induction l with
  | nil => rfl
  | cons b l ih => rw [List.map_cons, hexAll, C54_hex_roundtrip, ih]

/-- how a Rekor v1 log renders an entry -/
def renderV1 (logIndex : Int) (logId : Bytes) (time : Int) (set body : Bytes) (p : Merkle.InclusionProof)
    (checkpoint : Str) : V1Entry :=
  { body := b64Encode body, logIndex := logIndex, logId := hexEncode logId, integratedTime := time,
    signedEntryTimestamp := b64Encode set, proofLogIndex := p.logIndex, rootHash := hexEncode p.rootHash,
    treeSize := p.treeSize, hashes := p.hashes.map hexEncode, checkpoint := checkpoint }

/-- **C68** Reading back what a log renders gives the same entry. -/
theorem C68_roundtrip (parseEntry : Bytes → Option (Option (Str × Str))) (uuid : Str) (logIndex : Int) (logId : Bytes)
    (time : Int) (set body : Bytes) (p : Merkle.InclusionProof) (checkpoint : Str) (kind version : Str)
    (hp : p.checkpoint = some checkpoint) (hk : parseEntry body = some (some (kind, version))) :
    fromV1Response parseEntry [(uuid, renderV1 logIndex logId time set body p checkpoint)] =
      .ok ⟨logIndex, logId, kind, version, some time, some set, some p, body⟩ := by
  unfold fromV1Response renderV1
  dsimp only
  rw [C54_base64_roundtrip]
  dsimp only
  rw [hk]
  dsimp only
  rw [C54_hex_roundtrip, C54_base64_roundtrip, C54_hex_roundtrip, hexAll_hexEncode]
  dsimp only
  obtain ⟨a, b, c, d, ck⟩ := p
  simp only at hp
  subst hp
  rfl

/-- **C68** Every entry accepted from a v1 response has a promise, a time and a proof with a checkpoint; the response has
exactly one entry, of one of the two kinds. -/
theorem C68_accepted (parseEntry : Bytes → Option (Option (Str × Str))) (response : List (Str × V1Entry)) (e : LogEntry)
    (h : fromV1Response parseEntry response = .ok e) :
    ∃ uuid v, response = [(uuid, v)] ∧ b64Decode v.body = .ok e.body ∧
      parseEntry e.body = some (some (e.kind, e.version)) ∧ e.logIndex = v.logIndex ∧
      hexDecode v.logId = some e.logId ∧ e.integratedTime = some v.integratedTime ∧
      (∃ set, b64Decode v.signedEntryTimestamp = .ok set ∧ e.promise = some set) ∧
      ∃ p, e.proof = some p ∧ p.logIndex = v.proofLogIndex ∧ p.treeSize = v.treeSize ∧
        hexDecode v.rootHash = some p.rootHash ∧ hexAll v.hashes = some p.hashes ∧ p.checkpoint = some v.checkpoint := by
  unfold fromV1Response at h
  split at h
  · rename_i uuid v
    refine ⟨uuid, v, rfl, ?_⟩
    split at h
    · cases h
    · rename_i body hb
      split at h
      · cases h
      · cases h
      · rename_i kind version hk
        split at h
        · rename_i logId set root hashes h1 h2 h3 h4
          dsimp only at h
          split at h
          · cases h
          · cases h
            exact ⟨hb, hk, rfl, h1, rfl, ⟨set, h2, rfl⟩, _, rfl, rfl, rfl, h3, h4, rfl⟩
        · cases h
  · cases h

example : fromV1Response (fun b => if b = [1] then some (some ("dsse".toList, "0.0.1".toList)) else none)
    [("u".toList, renderV1 3 [7] 100 [9] [1] ⟨0, [2], 1, [], some "c".toList⟩ "c".toList)] =
    .ok ⟨3, [7], "dsse".toList, "0.0.1".toList, some 100, some [9], some ⟨0, [2], 1, [], some "c".toList⟩, [1]⟩ :=
  C68_roundtrip _ _ _ _ _ _ _ _ _ _ _ rfl rfl

/-! ## C56 -/

/-- what every reachable state satisfies -/
theorem sessions_invariant (schedule : List Nat) :
    let s := runSessions schedule
    (∀ t x, s.stored t = some x → s.creators[x]? = some t) ∧
    (∀ t x, s.pc t = .store x → s.creators[x]? = some t ∧ s.stored t = none) ∧
    (∀ t, s.pc t = .create → s.stored t = none) ∧
    (∀ t x, (t, x) ∈ s.uses → s.stored t = some x) := by
  induction schedule using List.reverseRecOn with
  | nil => exact ⟨by simp [runSessions, Sessions.init], by simp [runSessions, Sessions.init],
      by simp [runSessions, Sessions.init], by simp [runSessions, Sessions.init]⟩
  | append_singleton l t ih =>
    dsimp only at ih ⊢
    have : runSessions (l ++ [t]) = sessionStep (runSessions l) t := by
      unfold runSessions; rw [List.foldl_append]; rfl
    rw [this]
    generalize runSessions l = s at ih
    obtain ⟨h1, h2, h3, h4⟩ := ih
    unfold sessionStep
    cases hp : s.pc t with
    | test =>
      dsimp only
      cases hs : s.stored t with
      | none =>
        dsimp only
        refine ⟨h1, fun u x hu => ?_, fun u hu => ?_, h4⟩
        · split at hu
          · cases hu
          · exact h2 u x hu
        · split at hu
          · rename_i h; exact h ▸ hs
          · exact h3 u hu
      | some x =>
        dsimp only
        refine ⟨h1, fun u x hu => ?_, fun u hu => ?_, h4⟩
        · split at hu
          · cases hu
          · exact h2 u x hu
        · split at hu
          · cases hu
          · exact h3 u hu
    | create =>
      dsimp only
      have hold : ∀ {u x : Nat}, s.creators[x]? = some u → (s.creators ++ [t])[x]? = some u := by
        intro u x h
        rw [List.getElem?_append_left (List.getElem?_eq_some_iff.1 h).1]; exact h
      refine ⟨fun u x hu => hold (h1 u x hu), fun u x hu => ?_, fun u hu => ?_, h4⟩
      · split at hu
        · rename_i h
          subst h
          cases hu
          exact ⟨by simp, h3 _ hp⟩
        · obtain ⟨a, b⟩ := h2 u x hu
          exact ⟨hold a, b⟩
      · split at hu
        · cases hu
        · exact h3 u hu
    | store y =>
      dsimp only
      obtain ⟨hy1, hy2⟩ := h2 t y hp
      refine ⟨fun u x hu => ?_, fun u x hu => ?_, fun u hu => ?_, fun u x hu => ?_⟩
      · split at hu
        · rename_i h
          cases hu
          exact h ▸ hy1
        · exact h1 u x hu
      · split at hu
        · cases hu
        · rename_i h
          rw [if_neg h]
          exact h2 u x hu
      · split at hu
        · cases hu
        · rename_i h
          rw [if_neg h]
          exact h3 u hu
      · have hst := h4 u x hu
        split
        · rename_i h
          rw [h, hy2] at hst; cases hst
        · exact hst
    | use =>
      dsimp only
      cases hs : s.stored t with
      | none => exact ⟨h1, h2, h3, h4⟩
      | some x =>
        dsimp only
        refine ⟨h1, fun u y hu => ?_, fun u hu => ?_, fun u y hu => ?_⟩
        · split at hu
          · cases hu
          · exact h2 u y hu
        · split at hu
          · cases hu
          · exact h3 u hu
        · rcases List.mem_append.1 hu with hu | hu
          · exact h4 u y hu
          · simp only [List.mem_singleton, Prod.mk.injEq] at hu
            obtain ⟨rfl, rfl⟩ := hu
            exact hs

/-- **C56** For every schedule: a session is used only by the thread that created it, a thread uses one session only, and
two threads never use the same one. -/
theorem C56_sessions_not_shared (schedule : List Nat) :
    (∀ t x, (t, x) ∈ (runSessions schedule).uses → (runSessions schedule).creators[x]? = some t) ∧
    (∀ t x y, (t, x) ∈ (runSessions schedule).uses → (t, y) ∈ (runSessions schedule).uses → x = y) ∧
    (∀ t u x, (t, x) ∈ (runSessions schedule).uses → (u, x) ∈ (runSessions schedule).uses → t = u) := by
  obtain ⟨h1, _, _, h4⟩ := sessions_invariant schedule
  refine ⟨fun t x h => h1 t x (h4 t x h), fun t x y hx hy => ?_, fun t u x ht hu => ?_⟩
  · have := (h4 t x hx).symm.trans (h4 t y hy)
    exact Option.some.inj this
  · have := (h1 t x (h4 t x ht)).symm.trans (h1 u x (h4 u x hu))
    exact Option.some.inj this

/-- two threads, interleaved; the first uses its session twice -/
example : (runSessions [0, 1, 0, 1, 0, 1, 0, 1, 0, 0]).uses = [(0, 0), (1, 1), (0, 0)] := by decide

end Sigstore.Props
