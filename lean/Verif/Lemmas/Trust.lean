import Verif.Spec.Keys

/-!
# Lemmas about keys and keyrings
-/

namespace Sigstore.Trust

open Sigstore.Spec

/-- the loaded key for a denoted public key and scheme -/
def toKey (c : Crypto) (key : PubKey) : Scheme → Key
  | .rsaPkcs1Sha256 => ⟨some .sha256, key, c.sha256 key.spki⟩
  | .ecdsa h => ⟨some h, key, c.sha256 key.spki⟩
  | .ed25519 => ⟨none, key, c.sha256 key.spki⟩

theorem toKey_keyId (c : Crypto) (key : PubKey) (s : Scheme) : (toKey c key s).keyId = c.sha256 key.spki := by
  cases s <;> rfl

theorem load_ok_iff (c : Crypto) (der : Bytes) (t : PubKey → Bool) (k : PubKey) :
    loadDerPublicKey c der t = .ok k ↔ c.loadDerPublicKey der = some k ∧ t k = true := by
  unfold loadDerPublicKey
  cases h : c.loadDerPublicKey der with
  | none => simp
  | some key =>
    by_cases ht : t key = true
    · simp only [ht, if_true, Except.ok.injEq, Option.some.injEq]
      constructor
      · rintro rfl; exact ⟨rfl, ht⟩
      · exact fun h => h.1
    · simp only [ht, Bool.false_eq_true, if_false, Option.some.injEq, false_iff, reduceCtorEq]
      rintro ⟨rfl, h⟩; exact ht h

theorem load_error (c : Crypto) (der : Bytes) (t : PubKey → Bool) (e : Exc)
    (h : loadDerPublicKey c der t = .error e) : e = .verification := by
  unfold loadDerPublicKey at h
  split at h
  · simpa using h.symm
  · split at h
    · simp at h
    · simpa using h.symm

theorem isRsa_iff (k : PubKey) : k.isRsa = true ↔ Fits .rsaPkcs1Sha256 k.kind := by
  unfold PubKey.isRsa
  cases h : k.kind <;> simp
  · exact .rsa _
  all_goals (intro h; cases h)

theorem isEc_iff (k : PubKey) (h : HashAlg) : k.isEc = true ↔ Fits (.ecdsa h) k.kind := by
  unfold PubKey.isEc
  cases h : k.kind <;> simp
  case ec => exact .ec _ _
  all_goals (intro h; cases h)

theorem isEd_iff (k : PubKey) : k.isEd25519 = true ↔ Fits .ed25519 k.kind := by
  unfold PubKey.isEd25519
  cases h : k.kind <;> simp
  case ed25519 => exact .ed25519
  all_goals (intro h; cases h)

theorem bind_ok_iff {α β : Type} (x : Py α) (f : α → Py β) (b : β) :
    (x >>= f) = .ok b ↔ ∃ a, x = .ok a ∧ f a = .ok b := by
  cases x <;> simp [bind, Except.bind]

theorem bind_error_iff {α β : Type} (x : Py α) (f : α → Py β) (e : Exc) :
    (x >>= f) = .error e ↔ x = .error e ∨ ∃ a, x = .ok a ∧ f a = .error e := by
  cases x <;> simp [bind, Except.bind]

/-- `Key(...)` succeeds exactly on messages that denote a key -/
theorem keyInit_ok_iff (c : Crypto) (m : PublicKeyMsg) (k : Key) :
    Key.init c m = .ok k ↔ ∃ key s, Denotes c m key s ∧ k = toKey c key s := by
  have key_lemma : ∀ (raw : Bytes) (t : PubKey → Bool) (ho : Option HashAlg),
      ((loadDerPublicKey c raw t >>= fun key => pure { hashAlgorithm := ho, key := key, keyId := pubKeyId c key }) = .ok k ↔
        ∃ key, c.loadDerPublicKey raw = some key ∧ t key = true ∧ k = ⟨ho, key, c.sha256 key.spki⟩) := by
    intro raw t ho
    rw [bind_ok_iff]
    constructor
    · rintro ⟨key, h1, h2⟩
      rw [load_ok_iff] at h1
      exact ⟨key, h1.1, h1.2, by simpa [pure, Except.pure, pubKeyId, eq_comm] using h2⟩
    · rintro ⟨key, h1, h2, h3⟩
      exact ⟨key, (load_ok_iff c raw t key).2 ⟨h1, h2⟩, by simp [pure, Except.pure, pubKeyId, h3]⟩
  unfold Key.init Denotes
  match hm : m.rawBytes with
  | none => simp
  | some [] => simp
  | some (b :: bs) =>
    dsimp only
    have simp_raw : ∀ key s, (∃ raw, some (b :: bs) = some raw ∧ raw ≠ [] ∧ c.loadDerPublicKey raw = some key ∧
        SchemeOf m.keyDetails s ∧ Fits s key.kind) ↔
        (c.loadDerPublicKey (b :: bs) = some key ∧ SchemeOf m.keyDetails s ∧ Fits s key.kind) := by
      intro key s
      constructor
      · rintro ⟨raw, h1, _, h2⟩; cases h1; exact h2
      · intro h; exact ⟨_, rfl, by simp, h⟩
    simp only [simp_raw]
    split
    · rename_i hr
      rw [key_lemma]
      have hs : SchemeOf m.keyDetails .rsaPkcs1Sha256 := by
        simp only [rsaSha256Details, List.mem_cons, List.not_mem_nil, or_false] at hr
        rcases hr with h | h | h | h <;> rw [h] <;> constructor
      have hu : ∀ s, SchemeOf m.keyDetails s → s = .rsaPkcs1Sha256 := by
        intro s h
        generalize m.keyDetails = d at *
        cases hs <;> cases h <;> rfl
      constructor
      · rintro ⟨key, h1, h2, h3⟩
        exact ⟨key, .rsaPkcs1Sha256, ⟨h1, hs, (isRsa_iff key).1 h2⟩, h3⟩
      · rintro ⟨key, s, ⟨h1, h2, h3⟩, h4⟩
        have := hu s h2; subst this
        exact ⟨key, h1, (isRsa_iff key).2 h3, h4⟩
    · rename_i hr
      split
      · rename_i ha hh
        rw [key_lemma]
        have hs : SchemeOf m.keyDetails (.ecdsa ha) := by
          generalize m.keyDetails = d at *
          revert hh
          cases d <;> simp [ecDetailsToHash, Dict.get?] <;> rintro rfl <;> constructor
        have hu : ∀ s, SchemeOf m.keyDetails s → s = .ecdsa ha := by
          intro s h
          generalize m.keyDetails = d at *
          cases hs <;> cases h <;> rfl
        constructor
        · rintro ⟨key, h1, h2, h3⟩
          exact ⟨key, .ecdsa ha, ⟨h1, hs, (isEc_iff key ha).1 h2⟩, h3⟩
        · rintro ⟨key, s, ⟨h1, h2, h3⟩, h4⟩
          have := hu s h2; subst this
          exact ⟨key, h1, (isEc_iff key ha).2 h3, h4⟩
      · rename_i hh
        split
        · rename_i he
          rw [key_lemma]
          have hs : SchemeOf m.keyDetails .ed25519 := by rw [he]; constructor
          have hu : ∀ s, SchemeOf m.keyDetails s → s = .ed25519 := by
            intro s h; rw [he] at h; cases h; rfl
          constructor
          · rintro ⟨key, h1, h2, h3⟩
            exact ⟨key, .ed25519, ⟨h1, hs, (isEd_iff key).1 h2⟩, h3⟩
          · rintro ⟨key, s, ⟨h1, h2, h3⟩, h4⟩
            have := hu s h2; subst this
            exact ⟨key, h1, (isEd_iff key).2 h3, h4⟩
        · rename_i he
          simp only [reduceCtorEq, false_iff, not_exists, not_and]
          rintro key s ⟨_, hs, _⟩
          exfalso
          generalize m.keyDetails = d at *
          cases hs <;> revert hr hh he <;> decide

theorem keyInit_error (c : Crypto) (m : PublicKeyMsg) (e : Exc) (h : Key.init c m = .error e) :
    e = .verification := by
  have key_lemma : ∀ (raw : Bytes) (t : PubKey → Bool) (ho : Option HashAlg),
      ((loadDerPublicKey c raw t >>= fun key => pure { hashAlgorithm := ho, key := key, keyId := pubKeyId c key } : Py Key) = .error e) →
        e = .verification := by
    intro raw t ho h
    rw [bind_error_iff] at h
    rcases h with h | ⟨a, _, h⟩
    · exact load_error c raw t e h
    · simp [pure, Except.pure] at h
  unfold Key.init at h
  split at h
  · simpa using h.symm
  · simpa using h.symm
  · dsimp only at h
    split at h
    · exact key_lemma _ _ _ h
    · split at h
      · exact key_lemma _ _ _ h
      · split at h
        · exact key_lemma _ _ _ h
        · simpa using h.symm

/-- verification with a loaded key is acceptance by its scheme; the "unsupported key" branch is dead -/
theorem keyVerify_toKey (c : Crypto) (key : PubKey) (s : Scheme) (hf : Fits s key.kind) (sig data : Bytes) :
    ((toKey c key s).verify c sig data = .ok () ∧ Accepts c key s data sig) ∨
    ((toKey c key s).verify c sig data = .error .invalidSignature ∧ ¬ Accepts c key s data sig) := by
  have aux : ∀ b : Bool, ((if b then .ok () else .error .invalidSignature : Py Unit) = .ok () ∧ b = true) ∨
      ((if b then .ok () else .error .invalidSignature : Py Unit) = .error .invalidSignature ∧ ¬ b = true) := by
    intro b; cases b <;> simp
  cases s with
  | rsaPkcs1Sha256 =>
    have h1 := (isRsa_iff key).2 hf
    simp only [toKey, Key.verify, h1, if_true, Accepts, Crypto.hash]
    exact aux _
  | ecdsa h =>
    have h1 := (isEc_iff key h).2 hf
    have h2 : key.isRsa = false := by
      unfold PubKey.isRsa; cases hk : key.kind with
      | rsa b => rw [hk] at hf; cases hf
      | _ => rfl
    cases h <;> simp only [toKey, Key.verify, h1, h2, if_true, Bool.false_eq_true, if_false, Accepts, Crypto.hash]
      <;> exact aux _
  | ed25519 =>
    have h1 := (isEd_iff key).2 hf
    have h2 : key.isRsa = false := by
      unfold PubKey.isRsa; cases hk : key.kind with
      | rsa b => rw [hk] at hf; cases hf
      | _ => rfl
    have h3 : key.isEc = false := by
      unfold PubKey.isEc; cases hk : key.kind with
      | ec b => rw [hk] at hf; cases hf
      | _ => rfl
    simp only [toKey, Key.verify, h1, h2, h3, if_true, Bool.false_eq_true, if_false, Accepts]
    exact aux _

/-- the keys loaded from a list of messages, in order -/
def loaded (c : Crypto) (ms : List PublicKeyMsg) : List Key :=
  ms.filterMap fun m => (Key.init c m).toOption

theorem initFrom_eq (c : Crypto) (ms : List PublicKeyMsg) : ∀ kr,
    Keyring.initFrom c kr ms = .ok ((loaded c ms).foldl (fun d k => Dict.set d k.keyId k) kr) := by
  induction ms with
  | nil => intro kr; rfl
  | cons m ms ih =>
    intro kr
    rw [Keyring.initFrom]
    cases h : Key.init c m with
    | ok k =>
      have : loaded c (m :: ms) = k :: loaded c ms := by simp [loaded, h, Except.toOption]
      simp only [this, List.foldl_cons]
      exact ih _
    | error e =>
      have : loaded c (m :: ms) = loaded c ms := by simp [loaded, h, Except.toOption]
      rw [keyInit_error c m e h, this]
      simp only [Exc.isVerificationError, if_true]
      exact ih _

theorem foldl_nodup (ks : List Key) : ∀ d : Keyring, (Dict.keys d).Nodup →
    (Dict.keys (ks.foldl (fun d k => Dict.set d k.keyId k) d)).Nodup := by
  induction ks with
  | nil => intro d h; exact h
  | cons k ks ih => intro d h; exact ih _ (Dict.nodup_keys_set d _ _ h)

/-- a key found in the folded dictionary is the last one with its id -/
theorem foldl_get? (ks : List Key) (id : Bytes) (k : Key) : ∀ d : Keyring,
    Dict.get? (ks.foldl (fun d k => Dict.set d k.keyId k) d) id = some k ↔
      (∃ pre post, ks = pre ++ k :: post ∧ k.keyId = id ∧ ∀ k' ∈ post, k'.keyId ≠ id) ∨
      ((∀ k' ∈ ks, k'.keyId ≠ id) ∧ Dict.get? d id = some k) := by
  induction ks with
  | nil => intro d; simp
  | cons k0 ks ih =>
    intro d
    rw [List.foldl_cons, ih]
    constructor
    · rintro (⟨pre, post, h1, h2, h3⟩ | ⟨h1, h2⟩)
      · exact .inl ⟨k0 :: pre, post, by rw [h1]; rfl, h2, h3⟩
      · by_cases hk : k0.keyId = id
        · subst hk
          rw [Dict.get?_set_self] at h2
          have := Option.some.inj h2
          subst this
          exact .inl ⟨[], ks, rfl, rfl, h1⟩
        · rw [Dict.get?_set_ne _ _ hk] at h2
          refine .inr ⟨?_, h2⟩
          intro k' hk'
          rcases List.mem_cons.1 hk' with rfl | h
          · exact hk
          · exact h1 _ h
    · rintro (⟨pre, post, h1, h2, h3⟩ | ⟨h1, h2⟩)
      · cases pre with
        | nil =>
          obtain ⟨e1, e2⟩ := List.cons.inj h1
          subst e1; subst e2; subst h2
          exact .inr ⟨h3, Dict.get?_set_self _ _ _⟩
        | cons p pre =>
          obtain ⟨e1, e2⟩ := List.cons.inj h1
          exact .inl ⟨pre, post, e2, h2, h3⟩
      · refine .inr ⟨fun k' hk' => h1 k' (List.mem_cons_of_mem _ hk'), ?_⟩
        rw [Dict.get?_set_ne _ _ (h1 k0 (by simp)), h2]

theorem mem_loaded (c : Crypto) (ms : List PublicKeyMsg) (k : Key) :
    k ∈ loaded c ms ↔ ∃ m ∈ ms, ∃ key s, Denotes c m key s ∧ k = toKey c key s := by
  unfold loaded
  rw [List.mem_filterMap]
  constructor
  · rintro ⟨m, hm, h⟩
    cases hk : Key.init c m with
    | ok k' =>
      rw [hk] at h
      have := Option.some.inj h
      subst this
      exact ⟨m, hm, (keyInit_ok_iff c m k').1 hk⟩
    | error e => rw [hk] at h; simp [Except.toOption] at h
  · rintro ⟨m, hm, h⟩
    have := (keyInit_ok_iff c m k).2 h
    exact ⟨m, hm, by rw [this]; rfl⟩

theorem loaded_append (c : Crypto) (a b : List PublicKeyMsg) : loaded c (a ++ b) = loaded c a ++ loaded c b := by
  simp [loaded]

theorem loaded_split (c : Crypto) : ∀ (ms : List PublicKeyMsg) (pre : List Key) (k : Key) (post : List Key),
    loaded c ms = pre ++ k :: post →
      ∃ a m b, ms = a ++ m :: b ∧ Key.init c m = .ok k ∧ loaded c b = post := by
  intro ms
  induction ms with
  | nil => intro pre k post h; simp [loaded] at h
  | cons m ms ih =>
    intro pre k post h
    cases hk : Key.init c m with
    | ok k0 =>
      have e : loaded c (m :: ms) = k0 :: loaded c ms := by simp [loaded, hk, Except.toOption]
      rw [e] at h
      cases pre with
      | nil =>
        obtain ⟨e1, e2⟩ := List.cons.inj h
        subst e1
        exact ⟨[], m, ms, rfl, hk, e2⟩
      | cons p pre =>
        obtain ⟨_, e2⟩ := List.cons.inj h
        obtain ⟨a, m', b, h1, h2, h3⟩ := ih pre k post e2
        exact ⟨m :: a, m', b, by rw [h1]; rfl, h2, h3⟩
    | error e0 =>
      have e : loaded c (m :: ms) = loaded c ms := by simp [loaded, hk, Except.toOption]
      rw [e] at h
      obtain ⟨a, m', b, h1, h2, h3⟩ := ih pre k post h
      exact ⟨m :: a, m', b, by rw [h1]; rfl, h2, h3⟩

/-- the keyring holds exactly the effective keys -/
theorem init_get?_iff (c : Crypto) (ms : List PublicKeyMsg) (kr : Keyring) (h : Keyring.init c ms = .ok kr)
    (id : Bytes) (k : Key) :
    Dict.get? kr id = some k ↔ ∃ key s, Effective c ms id key s ∧ k = toKey c key s := by
  rw [Keyring.init, initFrom_eq] at h
  have := Except.ok.inj h
  subst this
  rw [foldl_get?]
  constructor
  · rintro (⟨pre, post, h1, h2, h3⟩ | ⟨_, h2⟩)
    · obtain ⟨a, m, b, e1, e2, e3⟩ := loaded_split c ms pre k post h1
      obtain ⟨key, s, hd, rfl⟩ := (keyInit_ok_iff c m k).1 e2
      refine ⟨key, s, ⟨a, m, b, e1, hd, by rw [← h2, toKey_keyId], ?_⟩, rfl⟩
      intro m' hm' key' s' hd'
      have hmem : toKey c key' s' ∈ loaded c b := (mem_loaded c b _).2 ⟨m', hm', key', s', hd', rfl⟩
      rw [e3] at hmem
      have := h3 _ hmem
      rwa [toKey_keyId] at this
    · simp [Dict.get?] at h2
  · rintro ⟨key, s, ⟨a, m, b, e1, hd, hid, hlast⟩, rfl⟩
    refine .inl ⟨loaded c a, loaded c b, ?_, by rw [toKey_keyId, hid], ?_⟩
    · have hk := (keyInit_ok_iff c m _).2 ⟨key, s, hd, rfl⟩
      rw [e1, loaded_append]
      congr 1
      simp [loaded, hk, Except.toOption]
    · intro k' hk'
      obtain ⟨m', hm', key', s', hd', rfl⟩ := (mem_loaded c b k').1 hk'
      rw [toKey_keyId]
      exact hlast m' hm' key' s' hd'

theorem init_nodup (c : Crypto) (ms : List PublicKeyMsg) (kr : Keyring) (h : Keyring.init c ms = .ok kr) :
    (Dict.keys kr).Nodup := by
  rw [Keyring.init, initFrom_eq] at h
  have := Except.ok.inj h
  subst this
  exact foldl_nodup _ [] (by simp [Dict.keys])

/-- the candidate loop, for keys that all have a fitting scheme -/
theorem tryCandidates_eq (c : Crypto) (sig data : Bytes) (ks : List Key)
    (h : ∀ k ∈ ks, ∃ key s, Fits s key.kind ∧ k = toKey c key s) :
    (tryCandidates c sig data ks = .ok true ∧ ∃ key s, toKey c key s ∈ ks ∧ Fits s key.kind ∧ Accepts c key s data sig) ∨
    (tryCandidates c sig data ks = .ok false ∧
      ∀ key s, toKey c key s ∈ ks → Fits s key.kind → ¬ Accepts c key s data sig) := by
  induction ks with
  | nil => right; exact ⟨rfl, by simp⟩
  | cons k ks ih =>
    obtain ⟨key, s, hf, rfl⟩ := h k (by simp)
    rw [tryCandidates]
    rcases keyVerify_toKey c key s hf sig data with ⟨h1, h2⟩ | ⟨h1, h2⟩
    · left; rw [h1]; exact ⟨rfl, key, s, by simp, hf, h2⟩
    · rw [h1]
      rcases ih (fun k hk => h k (List.mem_cons_of_mem _ hk)) with ⟨h3, key', s', hm, hf', ha⟩ | ⟨h3, h4⟩
      · left; exact ⟨h3, key', s', List.mem_cons_of_mem _ hm, hf', ha⟩
      · right
        refine ⟨h3, ?_⟩
        intro key' s' hm hf' ha
        rcases List.mem_cons.1 hm with he | hm
        · have hv1 := keyVerify_toKey c key' s' hf' sig data
          rw [he, h1] at hv1
          rcases hv1 with ⟨h5, _⟩ | ⟨_, h5⟩
          · simp at h5
          · exact h5 ha
        · exact h4 key' s' hm hf' ha

end Sigstore.Trust
