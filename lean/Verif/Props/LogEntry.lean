import Verif.Props.Checkpoint
import Verif.Props.Merkle
import Verif.Spec.Canonical

/-!
# C04, C08, C57: transparency log entries
-/

namespace Sigstore.Props

open Sigstore.Trust Sigstore.Spec Sigstore.Checkpoint Sigstore.LogEntry Sigstore.Merkle Sigstore.Rfc6962

/-! ## C08 -/

theorem canonicalText_injective (b₁ t₁ l₁ i₁ b₂ t₂ l₂ i₂ : Str)
    (hb₁ : '"' ∉ b₁) (hb₂ : '"' ∉ b₂) (ht₁ : ',' ∉ t₁) (ht₂ : ',' ∉ t₂)
    (hl₁ : '"' ∉ l₁) (hl₂ : '"' ∉ l₂)
    (h : canonicalText b₁ t₁ l₁ i₁ = canonicalText b₂ t₂ l₂ i₂) : b₁ = b₂ ∧ t₁ = t₂ ∧ l₁ = l₂ ∧ i₁ = i₂ := by
  unfold canonicalText at h
  simp only [List.append_assoc] at h
  have h := List.append_cancel_left h
  rw [show ("\",\"integratedTime\":".toList) = '"' :: ",\"integratedTime\":".toList from rfl] at h
  rw [List.cons_append, List.cons_append] at h
  obtain ⟨e1, h⟩ := split_at_delim '"' _ _ _ _ hb₁ hb₂ h
  have h := List.append_cancel_left h
  rw [show (",\"logID\":\"".toList) = ',' :: "\"logID\":\"".toList from rfl, List.cons_append, List.cons_append] at h
  obtain ⟨e2, h⟩ := split_at_delim ',' _ _ _ _ ht₁ ht₂ h
  have h := List.append_cancel_left h
  rw [show ("\",\"logIndex\":".toList) = '"' :: ",\"logIndex\":".toList from rfl, List.cons_append, List.cons_append] at h
  obtain ⟨e3, h⟩ := split_at_delim '"' _ _ _ _ hl₁ hl₂ h
  have h := List.append_cancel_left h
  exact ⟨e1, e2, e3, List.append_cancel_right h⟩

theorem b64Encode_no_quote (bs : Bytes) : '"' ∉ b64Encode bs := by
  have hc : ∀ n, n < 64 → b64Char n ≠ '"' := by decide
  intro h
  rcases b64Encode_chars bs _ h with h | ⟨n, hn, h⟩
  · revert h; decide
  · exact hc n hn h.symm

theorem hexEncode_no_quote (bs : Bytes) : '"' ∉ hexEncode bs := by
  have hd : ∀ n, n < 16 → hexDigit n ≠ '"' := by decide
  induction bs with
  | nil => simp [hexEncode]
  | cons b bs ih =>
    have hb : b.toNat < 256 := b.toNat_lt
    rw [hexEncode]
    simp only [List.mem_cons, not_or]
    exact ⟨fun h => hd _ (by omega) h.symm, fun h => hd _ (by omega) h.symm, ih⟩

theorem decimalInt_no_comma (n : Int) : ',' ∉ decimalInt n := by
  intro h
  rcases decimalInt_chars n _ h with h | h
  · revert h; decide
  · revert h; decide

/-- the text that is signed is the canonical JSON of the specification -/
theorem canonicalText_eq (body : Bytes) (time : Int) (logId : Bytes) (index : Int) :
    canonicalText (b64Encode body) (decimalInt time) (hexEncode logId) (decimalInt index) = promiseText body time logId index := by
  unfold canonicalText promiseText canonicalObject promiseMembers CanonicalValue.render
  simp [List.intercalate, List.intersperse]

/-- the integers that canonical JSON can carry -/
def JsonSafe (n : Int) : Prop := -(2 ^ 53 - 1) ≤ n ∧ n ≤ 2 ^ 53 - 1

/-- **C08** The signed payload is the canonical JSON of body, time, log id and index.  It exists if the entry has a time and
both numbers are ones that JSON can carry exactly. -/
theorem C08_set_payload_iff (e : LogEntry) (p : Bytes) :
    e.encodeCanonical = .ok p ↔ ∃ t, e.integratedTime = some t ∧ JsonSafe t ∧ JsonSafe e.logIndex ∧
      p = utf8 (promiseText e.body t e.logId e.logIndex) := by
  simp only [← canonicalText_eq]
  unfold LogEntry.encodeCanonical jsonInt JsonSafe
  cases ht : e.integratedTime with
  | none => simp
  | some t =>
    dsimp only
    by_cases h1 : -(2 ^ 53 - 1) ≤ t ∧ t ≤ 2 ^ 53 - 1
    · by_cases h2 : -(2 ^ 53 - 1) ≤ e.logIndex ∧ e.logIndex ≤ 2 ^ 53 - 1
      · rw [if_pos h1, if_pos h2]
        constructor
        · intro h; exact ⟨t, rfl, h1, h2, (Except.ok.inj h).symm⟩
        · rintro ⟨t', ht', _, _, rfl⟩
          cases ht'; rfl
      · rw [if_pos h1, if_neg h2]
        constructor
        · intro h; cases h
        · rintro ⟨_, _, _, h, _⟩; exact absurd h h2
    · rw [if_neg h1]
      constructor
      · intro h; cases h
      · rintro ⟨t', ht', h, _⟩; cases ht'; exact absurd h h1

/-- **C08** The signed entry timestamp payload determines body, integrated time, log id and log index. -/
theorem C08_set_payload_injective (e₁ e₂ : LogEntry) (p : Bytes)
    (h₁ : e₁.encodeCanonical = .ok p) (h₂ : e₂.encodeCanonical = .ok p) :
    e₁.body = e₂.body ∧ e₁.integratedTime = e₂.integratedTime ∧ e₁.logId = e₂.logId ∧
      e₁.logIndex = e₂.logIndex := by
  obtain ⟨t₁, a1, _, _, rfl⟩ := (C08_set_payload_iff e₁ p).1 h₁
  obtain ⟨t₂, a2, _, _, h⟩ := (C08_set_payload_iff e₂ _).1 h₂
  rw [← canonicalText_eq, ← canonicalText_eq] at h
  obtain ⟨x1, x2, x3, x4⟩ := canonicalText_injective _ _ _ _ _ _ _ _ (b64Encode_no_quote _) (b64Encode_no_quote _)
    (decimalInt_no_comma _) (decimalInt_no_comma _) (hexEncode_no_quote _) (hexEncode_no_quote _) (utf8_injective h)
  refine ⟨b64Encode_injective x1, ?_, hexEncode_injective x3, decimalInt_injective x4⟩
  rw [a1, a2, decimalInt_injective x2]

/-- **C08** The payload exists exactly when the entry has an integrated time and both numbers fit
canonical JSON; otherwise a `ValueError` is raised, in the latter case its subclass `CanonicalizationError`. -/
theorem C08_set_payload_defined (e : LogEntry) :
    ((∃ p, e.encodeCanonical = .ok p) ↔ ∃ t, e.integratedTime = some t ∧ JsonSafe t ∧ JsonSafe e.logIndex) ∧
    (e.integratedTime = none → e.encodeCanonical = .error .valueError) ∧
    (∀ t, e.integratedTime = some t → ¬ (JsonSafe t ∧ JsonSafe e.logIndex) → e.encodeCanonical = .error .canonicalization) := by
  refine ⟨⟨?_, ?_⟩, ?_, ?_⟩
  · rintro ⟨p, hp⟩
    obtain ⟨t, h1, h2, h3, _⟩ := (C08_set_payload_iff e p).1 hp
    exact ⟨t, h1, h2, h3⟩
  · rintro ⟨t, h1, h2, h3⟩
    exact ⟨_, (C08_set_payload_iff e _).2 ⟨t, h1, h2, h3, rfl⟩⟩
  · intro h; unfold LogEntry.encodeCanonical; rw [h]
  · intro t h hn
    unfold LogEntry.encodeCanonical jsonInt
    rw [h]; dsimp only
    unfold JsonSafe at hn
    by_cases h1 : -(2 ^ 53 - 1) ≤ t ∧ t ≤ 2 ^ 53 - 1
    · rw [if_pos h1, if_neg (fun h2 => hn ⟨h1, h2⟩)]
    · rw [if_neg h1]

example : (⟨7, [0xab], [], [], none, none, none, [1, 2, 3]⟩ : LogEntry).encodeCanonical = .error .valueError ∧
    (⟨7, [0xab], [], [], some (2 ^ 53), none, none, [1, 2, 3]⟩ : LogEntry).encodeCanonical = .error .canonicalization := by
  decide

/-- **C08** Consequence for verification: if a log's keys only ever signed the payloads of the entries
in `signed`, a verified SET shows that the entry agrees with one of them in all four fields. -/
theorem C08_verified_set_is_a_signed_entry (c : Crypto) (ms : List PublicKeyMsg) (kr : Keyring)
    (hkr : Keyring.init c ms = .ok kr) (signed : List LogEntry)
    (honest : ∀ m ∈ ms, ∀ key s data sig, Denotes c m key s → Accepts c key s data sig →
      ∃ e' ∈ signed, e'.encodeCanonical = .ok data)
    (e : LogEntry) (h : e.verifySet c kr = .ok ()) :
    ∃ e' ∈ signed, e'.body = e.body ∧ e'.integratedTime = e.integratedTime ∧ e'.logId = e.logId ∧
      e'.logIndex = e.logIndex := by
  unfold LogEntry.verifySet at h
  split at h
  · simp at h
  · rename_i set hset
    split at h
    · simp at h
    · rename_i data hdata
      split at h
      · rename_i hv
        obtain ⟨m, hm, key, s, hd, ha⟩ := C10_sound c ms kr hkr _ _ _ hv
        obtain ⟨e', he', hp⟩ := honest m hm key s data set hd ha
        exact ⟨e', he', C08_set_payload_injective e' e data hp hdata⟩
      · split at h <;> simp at h

/-- a concrete payload -/
example : (⟨7, [0xab], [], [], some 1700000000, none, none, [1, 2, 3]⟩ : LogEntry).encodeCanonical =
    .ok (utf8 "{\"body\":\"AQID\",\"integratedTime\":1700000000,\"logID\":\"ab\",\"logIndex\":7}".toList) := by
  rw [C08_set_payload_iff]
  refine ⟨1700000000, rfl, by unfold JsonSafe; decide, by unfold JsonSafe; decide, ?_⟩
  decide

/-! ## C57 -/

/-- **C57** A log entry verifies iff it has an inclusion proof, the proof recomputes the root hash, the
checkpoint check passes, and, when a promise and a non-zero integrated time are both present, the
promise is a signature over the canonical payload that the keyring accepts under the log id. -/
theorem C57_entry_verifies_iff (pyInt : Str → Option Int) (c : Crypto) (kr : Keyring) (e : LogEntry) :
    e.verify pyInt c kr = .ok () ↔
      ∃ p, e.proof = some p ∧ verifyMerkleInclusion c.sha256 e.body p = .ok () ∧
        verifyCheckpoint pyInt c kr e.logId p = .ok () ∧
        ∀ set t, e.promise = some set → e.integratedTime = some t → t ≠ 0 →
          JsonSafe t ∧ JsonSafe e.logIndex ∧
          kr.verify c e.logId set (utf8 (promiseText e.body t e.logId e.logIndex)) = .ok () := by
  have hset : ∀ set t, e.promise = some set → e.integratedTime = some t →
      (e.verifySet c kr = .ok () ↔ JsonSafe t ∧ JsonSafe e.logIndex ∧
          kr.verify c e.logId set (utf8 (promiseText e.body t e.logId e.logIndex)) = .ok ()) := by
    intro set t hp ht
    unfold LogEntry.verifySet
    rw [hp]
    dsimp only
    cases he : e.encodeCanonical with
    | error x =>
      simp only [reduceCtorEq, false_iff, not_and]
      intro h1 h2 _
      have := (C08_set_payload_iff e _).2 ⟨t, ht, h1, h2, rfl⟩
      rw [he] at this; simp at this
    | ok data =>
      obtain ⟨t', ht', h1, h2, rfl⟩ := (C08_set_payload_iff e data).1 he
      have : t' = t := by rw [ht] at ht'; exact (Option.some.inj ht').symm
      subst this
      simp only [h1, h2, true_and]
      split
      · rename_i hv; simp [hv]
      · rename_i x hv
        rw [hv]
        cases x.isVerificationError <;> simp
  unfold LogEntry.verify
  cases hp : e.proof with
  | none => simp
  | some p =>
    simp only [Option.some.injEq, exists_eq_left']
    cases hm : verifyMerkleInclusion c.sha256 e.body p with
    | error x => simp
    | ok u =>
      cases u
      cases hc : verifyCheckpoint pyInt c kr e.logId p with
      | error x => simp
      | ok u =>
        cases u
        simp only [true_and]
        cases hpr : e.promise with
        | none => simp [LogEntry.hasUsableSet, hpr]
        | some set =>
          cases ht : e.integratedTime with
          | none => simp [LogEntry.hasUsableSet, hpr, ht]
          | some t =>
            by_cases h0 : t = 0
            · subst h0; simp [LogEntry.hasUsableSet, hpr, ht]
            · have hu : e.hasUsableSet = true := by simp [LogEntry.hasUsableSet, hpr, ht, h0]
              rw [hu, if_pos rfl, hset set t hpr ht]
              constructor
              · rintro h set' t' hs' ht' _
                cases hs'; cases ht'; exact h
              · intro h; exact h set t rfl rfl h0

/-- **C57** A missing inclusion proof is an error (an `AttributeError`, raised before any check). -/
theorem C57_missing_proof (pyInt : Str → Option Int) (c : Crypto) (kr : Keyring) (e : LogEntry)
    (h : e.proof = none) : e.verify pyInt c kr = .error .attributeError := by
  unfold LogEntry.verify; rw [h]

/-- **C57** End to end: a verified entry comes with a checkpoint text signed by a trusted log key whose
root hash is the one recomputed from the entry; if that root is the head of a log `D`, then the body
is an entry of `D` (absent collisions), and the entry of `D` at the claimed index when the claimed
size is that of `D`. -/
theorem C57_verified_entry_is_logged (pyInt : Str → Option Int) (c : Crypto) (L : Nat)
    (hL : ∀ x, (c.sha256 x).length = L) (ms : List PublicKeyMsg) (kr : Keyring)
    (hkr : Keyring.init c ms = .ok kr) (e : LogEntry) (p : InclusionProof) (hp : e.proof = some p)
    (D : List Bytes) (hD : p.rootHash = mth c.sha256 D)
    (nocoll : ∀ x ∈ hashedByTree c.sha256 D ++ hashedByCheck c.sha256 (codeDirs p.logIndex p.treeSize) e.body p.hashes,
      ∀ y ∈ hashedByTree c.sha256 D ++ hashedByCheck c.sha256 (codeDirs p.logIndex p.treeSize) e.body p.hashes,
        c.sha256 x = c.sha256 y → x = y)
    (h : e.verify pyInt c kr = .ok ()) :
    e.body ∈ D ∧
    (p.treeSize = D.length → p.logIndex < p.treeSize → D[p.logIndex]? = some e.body) ∧
    ∃ env note data sig, p.checkpoint = some env ∧ env = note ++ '\n' :: data ∧
      (∃ origin size root rest, splitLines (strip note) = origin :: size :: root :: rest ∧
        b64Decode root = .ok (mth c.sha256 D)) ∧
      ∃ m ∈ ms, ∃ key s, Denotes c m key s ∧ Accepts c key s (utf8 note) sig := by
  obtain ⟨p', hp', hm, hc, _⟩ := (C57_entry_verifies_iff pyInt c kr e).1 h
  rw [hp] at hp'
  have := Option.some.inj hp'
  subst this
  refine ⟨C02_accepted_is_member c.sha256 L hL D e.body p hD nocoll hm, ?_, ?_⟩
  · intro hs hi
    rw [codeDirs_eq_rfcDirs _ _ hi] at nocoll
    exact C02_accepted_is_leaf c.sha256 L hL D e.body p hs hi hD nocoll hm
  · obtain ⟨env, note, data, h1, h2, _, _, ⟨o, s, r, rest, h3, h4⟩, ⟨_, _, sig, _, _, _, h5⟩⟩ :=
      C05_checkpoint_sound pyInt c ms kr hkr e.logId p hc
    exact ⟨env, note, data, sig, h1, h2, ⟨o, s, r, rest, h3, by rw [h4, hD]⟩, h5⟩

/-! ## C04 -/

/-- A crypto suite with the identity as digest, in which everything signed with `[4, ...]` keys by
prefixing is accepted; the checkpoint of a log with the two entries `[10]`, `[20]`. -/
def exCk2 : Spec.Checkpoint :=
  { origin := "o".toList, size := 2, root := [1, 0, 10, 0, 20], extra := [] }

/-- the signed checkpoint text of that log -/
def exEnv2 : Str := envelopeText exCk2 [⟨"o".toList, [4, 20, 0, 0], [4, 20, 0, 0] ++ utf8 exCk2.noteText⟩]

/-- an entry claiming to be at index 1 in a tree of size 1 -/
def exOutside : LogEntry :=
  { logIndex := 1, logId := [4, 20, 0, 0], kind := [], version := [], integratedTime := none,
    promise := none, body := [20],
    proof := some { logIndex := 1, rootHash := [1, 0, 10, 0, 20], treeSize := 1, hashes := [[0, 10]],
                    checkpoint := some exEnv2 } }

theorem exOutside_verifies : exOutside.verify asciiInt toyCrypto exKeyring = .ok () := by
  rw [C57_entry_verifies_iff]
  refine ⟨_, rfl, by decide, ?_, by intro set t h; simp [exOutside] at h⟩
  show verifyCheckpoint asciiInt toyCrypto exKeyring [4, 20, 0, 0] _ = _
  rw [C07_honest_checkpoint_iff asciiInt toyCrypto exKeyring [4, 20, 0, 0] _ exCk2 [] []
    ⟨"o".toList, [4, 20, 0, 0], [4, 20, 0, 0] ++ utf8 exCk2.noteText⟩
    ⟨by decide, by decide, by decide, by decide, by decide, by decide, by decide⟩
    (by intro x hx
        rw [List.nil_append, List.mem_singleton] at hx
        subst hx; exact ⟨by decide, by decide, by decide, by decide⟩)
    (by decide) rfl (by simp) (by decide)]
  exact ⟨by decide, rfl⟩

/-- **C04** (refuted) An entry whose proof claims index 1 in a tree of size 1, against a checkpoint that
states size 2, verifies: the index is never compared with the size, nor the size with the checkpoint. -/
theorem C04_position_not_checked :
    ¬ ∀ (pyInt : Str → Option Int) (c : Crypto) (kr : Keyring) (e : LogEntry) (p : InclusionProof) (sc : SignedCheckpoint),
      e.proof = some p → e.verify pyInt c kr = .ok () →
      (∃ env, p.checkpoint = some env ∧ SignedCheckpoint.fromText pyInt env = .ok sc) →
      p.logIndex < p.treeSize ∧ (p.treeSize : Int) = sc.checkpoint.logSize := by
  intro h
  have := h asciiInt toyCrypto exKeyring exOutside _ _ rfl exOutside_verifies
    ⟨exEnv2, rfl, C07_roundtrip asciiInt exCk2 _
      ⟨by decide, by decide, by decide, by decide, by decide, by decide, by decide⟩
      (by intro x hx
          rw [List.mem_singleton] at hx
          subst hx; exact ⟨by decide, by decide, by decide, by decide⟩) (by simp) (by decide)⟩
  exact absurd this.1 (by decide)

/-- **C04** (what does hold) The claimed index determines the path through the tree: when it is inside
the claimed size, the proof has the RFC 6962 length for that position and the root in the signed
checkpoint is recomputed along the RFC 6962 path.  Missing for the full property: that the index is
inside the size, and that the size is the one in the checkpoint. -/
theorem C04_path_matches_claimed_position_partial (pyInt : Str → Option Int) (c : Crypto) (kr : Keyring)
    (e : LogEntry) (p : InclusionProof) (hp : e.proof = some p) (h : e.verify pyInt c kr = .ok ())
    (hidx : p.logIndex < p.treeSize) :
    p.hashes.length = pathLength p.logIndex p.treeSize ∧
      runSteps c.sha256 (c.sha256 (0 :: e.body)) ((rfcDirs p.logIndex p.treeSize).zip p.hashes) = p.rootHash := by
  obtain ⟨p', hp', hm, _, _⟩ := (C57_entry_verifies_iff pyInt c kr e).1 h
  rw [hp] at hp'
  have := Option.some.inj hp'
  subst this
  refine ⟨C03_exact_length _ _ _ hidx hm, ?_⟩
  rw [verify_ok_iff, codeDirs_eq_rfcDirs _ _ hidx] at hm
  exact hm.2

end Sigstore.Props
