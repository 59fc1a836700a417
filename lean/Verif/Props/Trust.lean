import Verif.Lemmas.Trust

/-!
# C10, C11, C12, C59: trusted keys, keyrings and validity windows
-/

namespace Sigstore.Props

open Sigstore.Trust Sigstore.Spec

/-! ## Concrete material for the examples -/

/-- A toy crypto suite: the "digest" is the message, a signature is the key's SPKI followed by the
digest, and DER parsing reads the key class from the first byte. -/
def toyCrypto : Crypto where
  sha256 := id
  sha384 := fun b => 3 :: b
  sha512 := fun b => 5 :: b
  rsaPkcs1 := fun k _ d s => s == k.spki ++ d
  ecdsa := fun k d s => s == k.spki ++ d
  ed25519 := fun k d s => s == k.spki ++ d
  loadDerPublicKey := fun der =>
    match der with
    | [] => none
    | b :: _ =>
      if b = 1 then some ⟨.rsa 2048, der⟩ else if b = 2 then some ⟨.ec .p256, der⟩
      else if b = 3 then some ⟨.ec .p384, der⟩ else if b = 4 then some ⟨.ed25519, der⟩ else none

/-- an RSA message, an EC message, an undecodable one and one whose class does not fit -/
def toyMsgs : List PublicKeyMsg :=
  [⟨some [1, 10], .pkcs1RsaPkcs1v5, none⟩, ⟨some [2, 20], .pkixEcdsaP256Sha256, none⟩,
   ⟨some [9], .pkixEd25519, none⟩, ⟨some [1, 11], .pkixEd25519, none⟩]

/-- the keyring of `toyMsgs` -/
def toyKeyring : Keyring :=
  [([1, 10], ⟨some .sha256, ⟨.rsa 2048, [1, 10]⟩, [1, 10]⟩),
   ([2, 20], ⟨some .sha256, ⟨.ec .p256, [2, 20]⟩, [2, 20]⟩)]

example : Keyring.init toyCrypto toyMsgs = .ok toyKeyring := by decide

/-! ## C10 -/

theorem effective_fits {c : Crypto} {ms : List PublicKeyMsg} {id : Bytes} {key : PubKey} {s : Scheme}
    (h : Effective c ms id key s) : Fits s key.kind := by
  obtain ⟨_, _, _, _, ⟨_, _, _, _, _, hf⟩, _, _⟩ := h
  exact hf

/-- **C10** Building a keyring never fails: unusable messages are skipped. -/
theorem C10_keyring_total (c : Crypto) (ms : List PublicKeyMsg) : ∃ kr, Keyring.init c ms = .ok kr :=
  ⟨_, initFrom_eq c ms []⟩

/-- **C10** Hint known: exactly the (last loaded) key with that id decides. -/
theorem C10_known_id (c : Crypto) (ms : List PublicKeyMsg) (kr : Keyring) (h : Keyring.init c ms = .ok kr)
    (id sig data : Bytes) (key : PubKey) (s : Scheme) (he : Effective c ms id key s) :
    kr.verify c id sig data = .ok () ↔ Accepts c key s data sig := by
  have hg := (init_get?_iff c ms kr h id _).2 ⟨key, s, he, rfl⟩
  simp only [Keyring.verify, hg, tryCandidates]
  rcases keyVerify_toKey c key s (effective_fits he) sig data with ⟨h1, h2⟩ | ⟨h1, h2⟩
  · simp [h1, h2]
  · simp [h1, h2]

/-- **C10** Hint unknown: all keys of the keyring are tried. -/
theorem C10_unknown_id (c : Crypto) (ms : List PublicKeyMsg) (kr : Keyring) (h : Keyring.init c ms = .ok kr)
    (id sig data : Bytes) (hn : ∀ key s, ¬ Effective c ms id key s) :
    kr.verify c id sig data = .ok () ↔
      ∃ id' key s, Effective c ms id' key s ∧ Accepts c key s data sig := by
  have hg : Dict.get? kr id = none := by
    cases hg : Dict.get? kr id with
    | none => rfl
    | some k =>
      obtain ⟨key, s, he, _⟩ := (init_get?_iff c ms kr h id k).1 hg
      exact absurd he (hn key s)
  have hvals : ∀ k ∈ Dict.values kr, ∃ id' key s, Effective c ms id' key s ∧ k = toKey c key s := by
    intro k hk
    obtain ⟨id', hid⟩ := (Dict.mem_values_iff (init_nodup c ms kr h) k).1 hk
    obtain ⟨key, s, he, hk⟩ := (init_get?_iff c ms kr h id' k).1 hid
    exact ⟨id', key, s, he, hk⟩
  simp only [Keyring.verify, hg]
  rcases tryCandidates_eq c sig data (Dict.values kr) (fun k hk => by
      obtain ⟨id', key, s, he, hk⟩ := hvals k hk
      exact ⟨key, s, effective_fits he, hk⟩) with ⟨h1, key, s, hm, hf, ha⟩ | ⟨h1, h2⟩
  · rw [h1]
    simp only [true_iff]
    obtain ⟨id', key', s', he, hk⟩ := hvals _ hm
    refine ⟨id', key', s', he, ?_⟩
    have e1 := keyVerify_toKey c key s hf sig data
    have e2 := keyVerify_toKey c key' s' (effective_fits he) sig data
    rw [← hk] at e2
    rcases e1 with ⟨e1, _⟩ | ⟨_, e1⟩
    · rcases e2 with ⟨_, e2⟩ | ⟨e2, _⟩
      · exact e2
      · rw [e1] at e2; simp at e2
    · exact absurd ha e1
  · rw [h1]
    simp only [reduceCtorEq, false_iff, not_exists, not_and]
    intro id' key s he
    have hg' := (init_get?_iff c ms kr h id' _).2 ⟨key, s, he, rfl⟩
    exact h2 key s ((Dict.mem_values_iff (init_nodup c ms kr h) _).2 ⟨id', hg'⟩) (effective_fits he)

/-- **C10** Success always means that some trusted message denotes a key that accepts. -/
theorem C10_sound (c : Crypto) (ms : List PublicKeyMsg) (kr : Keyring) (h : Keyring.init c ms = .ok kr)
    (id sig data : Bytes) (hok : kr.verify c id sig data = .ok ()) :
    ∃ m ∈ ms, ∃ key s, Denotes c m key s ∧ Accepts c key s data sig := by
  have fin : ∀ id' key s, Effective c ms id' key s → Accepts c key s data sig →
      ∃ m ∈ ms, ∃ key s, Denotes c m key s ∧ Accepts c key s data sig := by
    rintro id' key s ⟨pre, m, post, e, hd, _, _⟩ ha
    exact ⟨m, by rw [e]; simp, key, s, hd, ha⟩
  by_cases hn : ∃ key s, Effective c ms id key s
  · obtain ⟨key, s, he⟩ := hn
    exact fin id key s he ((C10_known_id c ms kr h id sig data key s he).1 hok)
  · have hn' : ∀ key s, ¬ Effective c ms id key s := fun key s he => hn ⟨key, s, he⟩
    obtain ⟨id', key, s, he, ha⟩ := (C10_unknown_id c ms kr h id sig data hn').1 hok
    exact fin id' key s he ha

/-- **C10** The keyring accepts exactly what the trusted keys accept. -/
theorem C10_keyring_iff (c : Crypto) (ms : List PublicKeyMsg) (kr : Keyring) (h : Keyring.init c ms = .ok kr)
    (id sig data : Bytes) : kr.verify c id sig data = .ok () ↔ KeysAccept c ms id data sig := by
  unfold KeysAccept
  by_cases hn : ∃ key s, Effective c ms id key s
  · obtain ⟨key, s, he⟩ := hn
    rw [C10_known_id c ms kr h id sig data key s he]
    constructor
    · exact fun ha => .inl ⟨key, s, he, ha⟩
    · rintro (⟨key', s', he', ha⟩ | ⟨hn, _⟩)
      · exact (C10_known_id c ms kr h id sig data key s he).1
          ((C10_known_id c ms kr h id sig data key' s' he').2 ha)
      · exact absurd he (hn key s)
  · have hn' : ∀ key s, ¬ Effective c ms id key s := fun key s he => hn ⟨key, s, he⟩
    rw [C10_unknown_id c ms kr h id sig data hn']
    constructor
    · exact fun h => .inr ⟨hn', h⟩
    · rintro (⟨key', s', he', _⟩ | ⟨_, h⟩)
      · exact absurd he' (hn' _ _)
      · exact h

/-- **C10** Every failure is reported as `VerificationError`. -/
theorem C10_failure_is_verification_error (c : Crypto) (ms : List PublicKeyMsg) (kr : Keyring)
    (h : Keyring.init c ms = .ok kr) (id sig data : Bytes) (e : Exc)
    (hf : kr.verify c id sig data = .error e) : e = .verification := by
  have hk : ∀ k ∈ (match Dict.get? kr id with | some key => [key] | none => Dict.values kr),
      ∃ key s, Fits s key.kind ∧ k = toKey c key s := by
    intro k hk
    have : ∃ id', Dict.get? kr id' = some k := by
      cases hg : Dict.get? kr id with
      | some k' =>
        rw [hg] at hk
        have : k = k' := by simpa using hk
        exact ⟨id, by rw [hg, this]⟩
      | none =>
        rw [hg] at hk
        exact (Dict.mem_values_iff (init_nodup c ms kr h) k).1 hk
    obtain ⟨id', hid⟩ := this
    obtain ⟨key, s, he, hk⟩ := (init_get?_iff c ms kr h id' k).1 hid
    exact ⟨key, s, effective_fits he, hk⟩
  unfold Keyring.verify at hf
  dsimp only at hf
  have h2 := tryCandidates_eq c sig data _ hk
  split at hf
  · rename_i e' h3
    rcases h2 with ⟨h2, _⟩ | ⟨h2, _⟩ <;> exact absurd (h2.symm.trans h3) (by simp)
  · simp at hf
  · simpa using hf.symm

/-- known hint, unknown hint and wrong signature on the toy keyring -/
example : Keyring.verify toyCrypto toyKeyring [2, 20] [2, 20, 7, 7] [7, 7] = .ok () ∧
    Keyring.verify toyCrypto toyKeyring [0, 0] [2, 20, 7, 7] [7, 7] = .ok () ∧
    Keyring.verify toyCrypto toyKeyring [1, 10] [2, 20, 7, 7] [7, 7] = .error .verification := by decide

example : Effective toyCrypto toyMsgs [2, 20] ⟨.ec .p256, [2, 20]⟩ (.ecdsa .sha256) := by
  refine ⟨[⟨some [1, 10], .pkcs1RsaPkcs1v5, none⟩], ⟨some [2, 20], .pkixEcdsaP256Sha256, none⟩,
    [⟨some [9], .pkixEd25519, none⟩, ⟨some [1, 11], .pkixEd25519, none⟩], rfl,
    ⟨[2, 20], rfl, by decide, rfl, .p256, .ec _ _⟩, rfl, ?_⟩
  rintro m' hm' key' s' ⟨raw, h1, _, h2, _, _⟩
  simp only [List.mem_cons, List.not_mem_nil, or_false] at hm'
  rcases hm' with rfl | rfl
  · cases h1; simp [toyCrypto] at h2
  · cases h1; simp [toyCrypto] at h2; subst h2; decide

/-! ## C11 -/

/-- **C11** A key loads exactly when its message has key bytes, a supported algorithm identifier, and
bytes that parse to a public key of that algorithm's class.  (The loaded key then has the digest of the
algorithm and the RFC 6962 key id: `C11_loaded_key_usable`.) -/
theorem C11_loads_iff (c : Crypto) (m : PublicKeyMsg) :
    (∃ k, Key.init c m = .ok k) ↔ ∃ key s, Denotes c m key s := by
  constructor
  · rintro ⟨k, hk⟩
    obtain ⟨key, s, h, _⟩ := (keyInit_ok_iff c m k).1 hk
    exact ⟨key, s, h⟩
  · rintro ⟨key, s, h⟩
    exact ⟨_, (keyInit_ok_iff c m _).2 ⟨key, s, h, rfl⟩⟩

/-- **C11** A loaded key is always usable: verification gives a verdict (the "unsupported key" error
does not occur) and the verdict is that of the declared algorithm. -/
theorem C11_loaded_key_usable (c : Crypto) (m : PublicKeyMsg) (k : Key) (h : Key.init c m = .ok k)
    (sig data : Bytes) :
    ∃ key s, Denotes c m key s ∧ k.keyId = c.sha256 key.spki ∧
      ((k.verify c sig data = .ok () ∧ Accepts c key s data sig) ∨
       (k.verify c sig data = .error .invalidSignature ∧ ¬ Accepts c key s data sig)) := by
  obtain ⟨key, s, hd, rfl⟩ := (keyInit_ok_iff c m k).1 h
  refine ⟨key, s, hd, toKey_keyId c key s, ?_⟩
  obtain ⟨_, _, _, _, _, hf⟩ := hd
  exact keyVerify_toKey c key s hf sig data

/-- **C11** Keys that fail to load fail with `VerificationError`. -/
theorem C11_load_failure (c : Crypto) (m : PublicKeyMsg) (e : Exc) (h : Key.init c m = .error e) :
    e = .verification := keyInit_error c m e h

/-- **C11** A message that denotes no key has no effect on the keyring, wherever it stands. -/
theorem C11_bad_key_skipped (c : Crypto) (pre post : List PublicKeyMsg) (m : PublicKeyMsg)
    (h : ∀ key s, ¬ Denotes c m key s) :
    Keyring.init c (pre ++ m :: post) = Keyring.init c (pre ++ post) := by
  have he : ∀ k, Key.init c m ≠ .ok k := by
    intro k hk
    obtain ⟨key, s, hd, _⟩ := (keyInit_ok_iff c m k).1 hk
    exact h key s hd
  have hl : loaded c (m :: post) = loaded c post := by
    cases hk : Key.init c m with
    | ok k => exact absurd hk (he k)
    | error e => simp [loaded, hk, Except.toOption]
  rw [Keyring.init, Keyring.init, initFrom_eq, initFrom_eq, loaded_append, loaded_append, hl]

/-- both kinds of messages exist in the toy list -/
example : (∃ k, Key.init toyCrypto toyMsgs[1] = .ok k) ∧ Key.init toyCrypto toyMsgs[3] = .error .verification :=
  ⟨⟨_, rfl⟩, rfl⟩

/-! ## C59: the curve of an EC key is not compared with the declared algorithm -/

/-- the curve named by an algorithm identifier -/
inductive CurveOf : KeyDetails → Curve → Prop
  | p256 : CurveOf .pkixEcdsaP256Sha256 .p256
  | p384 : CurveOf .pkixEcdsaP384Sha384 .p384
  | p521 : CurveOf .pkixEcdsaP521Sha512 .p521

/-- the digest that the registry pairs with a curve -/
def digestFor : Curve → HashAlg
  | .p384 => .sha384
  | .p521 => .sha512
  | _ => .sha256

/-- **C59** (refuted) The code loads a P-384 key that is declared as P-256 with SHA-256. -/
theorem C59_curve_not_checked :
    ¬ ∀ (c : Crypto) (m : PublicKeyMsg) (k : Key) (curve declared : Curve), Key.init c m = .ok k →
        k.key.kind = .ec curve → CurveOf m.keyDetails declared → curve = declared := by
  intro h
  have := h toyCrypto ⟨some [3, 1], .pkixEcdsaP256Sha256, none⟩ _ .p384 .p256 rfl rfl .p256
  simp at this

/-- **C59** (what does hold) The key is an EC key on some curve, used with the declared digest.
Missing for the full property: equality of the curves. -/
theorem C59_ec_family_partial (c : Crypto) (m : PublicKeyMsg) (k : Key) (declared : Curve)
    (h : Key.init c m = .ok k) (hd : CurveOf m.keyDetails declared) :
    (∃ curve, k.key.kind = .ec curve) ∧ k.hashAlgorithm = some (digestFor declared) := by
  obtain ⟨key, s, ⟨raw, _, _, _, hs, hf⟩, rfl⟩ := (keyInit_ok_iff c m k).1 h
  generalize m.keyDetails = d at *
  cases hd <;> cases hs <;> (generalize hk : key.kind = kd at hf; cases hf; exact ⟨⟨_, hk⟩, rfl⟩)

/-! ## C12 -/

/-- **C12** Usability of key and CA material at clock reading `now`. -/
theorem C12_usable_iff (now : Time) (p : Option TimeRange) (allowExpired : Bool) :
    isTimerangeValid now p allowExpired = true ↔
      ∀ r, p = some r → r.start ≤ now ∧ (allowExpired = true ∨ ∀ e, r.stop = some e → now ≤ e) := by
  cases p with
  | none => simp [isTimerangeValid]
  | some r =>
    simp only [isTimerangeValid, Option.some.injEq, forall_eq']
    split
    · rename_i h
      simp only [Bool.false_eq_true, false_iff, not_and]
      intro h'; omega
    · rename_i h
      have hs : r.start ≤ now := by omega
      cases he : r.stop <;> simp [hs]

/-- **C12** Whatever is usable for signing is usable for verification, for logs ... -/
theorem C12_sign_usable_implies_verify_usable (now : Time) (ms : List PublicKeyMsg) :
    ∀ m ∈ getTlogKeys now ms .sign, m ∈ getTlogKeys now ms .verify := by
  intro m hm
  simp only [getTlogKeys, List.mem_filter] at hm ⊢
  refine ⟨hm.1, ?_⟩
  rw [C12_usable_iff] at *
  intro r hr
  exact ⟨(hm.2 r hr).1, .inl rfl⟩

/-- **C12** The keys handed out for verification are exactly those whose period, if any, has started;
for signing it must also not have ended.  (Order and multiplicity are kept, see `C12_log_keys_order`.) -/
theorem C12_log_keys_iff (now : Time) (ms : List PublicKeyMsg) (purpose : Purpose) (m : PublicKeyMsg) :
    m ∈ getTlogKeys now ms purpose ↔
      m ∈ ms ∧ ∀ r, m.validFor = some r → r.start ≤ now ∧
        (purpose = .verify ∨ ∀ e, r.stop = some e → now ≤ e) := by
  simp only [getTlogKeys, List.mem_filter, C12_usable_iff, decide_eq_true_eq]

/-- **C12** Order and multiplicity of the keys are kept. -/
theorem C12_log_keys_order (now : Time) (ms : List PublicKeyMsg) (purpose : Purpose) :
    (getTlogKeys now ms purpose).Sublist ms ∧
    ∀ m ∈ getTlogKeys now ms purpose, (getTlogKeys now ms purpose).count m = ms.count m := by
  refine ⟨List.filter_sublist, fun m hm => ?_⟩
  exact List.count_filter (List.mem_filter.1 hm).2

/-- **C12** With expired material allowed, usability is monotone in time. -/
theorem C12_verify_usability_monotone (now later : Time) (hle : now ≤ later) (p : Option TimeRange)
    (h : isTimerangeValid now p true = true) : isTimerangeValid later p true = true := by
  rw [C12_usable_iff] at *
  intro r hr
  have := (h r hr).1
  exact ⟨by omega, .inl rfl⟩

/-- **C12** A Rekor keyring exists iff some log key is usable; a signature accepted by it was made by
a key of the trusted root whose validity period has started (and, for signing, not ended). -/
theorem C12_rekor_keyring {χ : Type} (c : Crypto) (now : Time) (tr : TrustedRoot χ) (purpose : Purpose) :
    ((∀ m ∈ tr.tlogs, m ∉ getTlogKeys now tr.tlogs purpose) → rekorKeyring c now tr purpose = .error .metadata) ∧
    (∀ m ∈ getTlogKeys now tr.tlogs purpose, ∃ kr, rekorKeyring c now tr purpose = .ok kr) ∧
    (∀ kr, rekorKeyring c now tr purpose = .ok kr → ∀ id sig data, kr.verify c id sig data = .ok () →
      ∃ m ∈ tr.tlogs, (∀ r, m.validFor = some r → r.start ≤ now ∧
          (purpose = .verify ∨ ∀ e, r.stop = some e → now ≤ e)) ∧
        ∃ key s, Denotes c m key s ∧ Accepts c key s data sig) := by
  unfold rekorKeyring
  refine ⟨?_, ?_, ?_⟩
  · intro h
    have : getTlogKeys now tr.tlogs purpose = [] := by
      rw [List.eq_nil_iff_forall_not_mem]
      intro m hm
      exact h m ((C12_log_keys_iff now _ _ m).1 hm).1 hm
    simp [this]
  · intro m hm
    have hne : (getTlogKeys now tr.tlogs purpose).length ≠ 0 := by
      intro h0
      rw [List.length_eq_zero_iff] at h0
      rw [h0] at hm; simp at hm
    simp only [if_neg hne]
    exact C10_keyring_total c _
  · intro kr hkr id sig data hok
    dsimp only at hkr
    split at hkr
    · simp at hkr
    · obtain ⟨m, hm, key, s, hd, ha⟩ := C10_sound c _ kr hkr id sig data hok
      obtain ⟨h1, h2⟩ := (C12_log_keys_iff now _ _ m).1 hm
      exact ⟨m, h1, h2, key, s, hd, ha⟩

/-- **C12** The same for the CT log keyring. -/
theorem C12_ct_keyring {χ : Type} (c : Crypto) (now : Time) (tr : TrustedRoot χ) (purpose : Purpose) :
    ((∀ m ∈ tr.ctlogs, m ∉ getTlogKeys now tr.ctlogs purpose) → ctKeyring c now tr purpose = .error .metadata) ∧
    (∀ m ∈ getTlogKeys now tr.ctlogs purpose, ∃ kr, ctKeyring c now tr purpose = .ok kr) ∧
    (∀ kr, ctKeyring c now tr purpose = .ok kr → ∀ id sig data, kr.verify c id sig data = .ok () →
      ∃ m ∈ tr.ctlogs, (∀ r, m.validFor = some r → r.start ≤ now ∧
          (purpose = .verify ∨ ∀ e, r.stop = some e → now ≤ e)) ∧
        ∃ key s, Denotes c m key s ∧ Accepts c key s data sig) := by
  unfold ctKeyring
  refine ⟨?_, ?_, ?_⟩
  · intro h
    have : getTlogKeys now tr.ctlogs purpose = [] := by
      rw [List.eq_nil_iff_forall_not_mem]
      intro m hm
      exact h m ((C12_log_keys_iff now _ _ m).1 hm).1 hm
    simp [this]
  · intro m hm
    have hne : ¬ (getTlogKeys now tr.ctlogs purpose).isEmpty = true := by
      intro h0
      rw [List.isEmpty_iff] at h0
      rw [h0] at hm; simp at hm
    simp only [if_neg hne]
    exact C10_keyring_total c _
  · intro kr hkr id sig data hok
    dsimp only at hkr
    split at hkr
    · simp at hkr
    · obtain ⟨m, hm, key, s, hd, ha⟩ := C10_sound c _ kr hkr id sig data hok
      obtain ⟨h1, h2⟩ := (C12_log_keys_iff now _ _ m).1 hm
      exact ⟨m, h1, h2, key, s, hd, ha⟩

theorem collectFulcioCerts_eq {χ : Type} (now : Time) (cas : List (CertificateAuthority χ))
    (hne : ∀ ca ∈ cas, ca.certificates ≠ []) : ∀ acc,
    collectFulcioCerts now acc cas = .ok (acc ++ cas.flatMap fun ca => ca.certs now true) := by
  induction cas with
  | nil => intro acc; simp [collectFulcioCerts]
  | cons a as ih =>
    intro acc
    have h : a.init = .ok a := by
      unfold CertificateAuthority.init
      rw [if_neg]
      intro h
      exact hne a (by simp) (List.isEmpty_iff.1 h)
    rw [collectFulcioCerts, h]
    dsimp only
    rw [ih (fun ca hca => hne ca (List.mem_cons_of_mem _ hca))]
    simp

theorem collectFulcioCerts_empty {χ : Type} (now : Time) (cas : List (CertificateAuthority χ))
    (h : ∃ ca ∈ cas, ca.certificates = []) : ∀ acc, collectFulcioCerts now acc cas = .error .error := by
  induction cas with
  | nil => obtain ⟨ca, hca, _⟩ := h; cases hca
  | cons a as ih =>
    intro acc
    rw [collectFulcioCerts]
    unfold CertificateAuthority.init
    cases ha : a.certificates with
    | nil => rfl
    | cons c cs =>
      obtain ⟨ca, hca, he⟩ := h
      rcases List.mem_cons.1 hca with rfl | hca
      · rw [ha] at he; cases he
      · exact ih ⟨ca, hca, he⟩ _

/-- **C12** An authority without certificates is an error, and so is a root in which no authority's period has started; otherwise there
are certificates. -/
theorem C12_fulcio_certs_error {χ : Type} (now : Time) (tr : TrustedRoot χ) :
    ((∃ ca ∈ tr.certificateAuthorities, ca.certificates = []) → getFulcioCerts now tr = .error .error) ∧
    ((∀ ca ∈ tr.certificateAuthorities, ca.certificates ≠ [] ∧ ∃ r, ca.validFor = some r ∧ now < r.start) →
      getFulcioCerts now tr = .error .metadata) ∧
    ((∀ ca ∈ tr.certificateAuthorities, ca.certificates ≠ []) →
      (∃ ca ∈ tr.certificateAuthorities, ∀ r, ca.validFor = some r → r.start ≤ now) → ∃ certs, getFulcioCerts now tr = .ok certs) := by
  refine ⟨fun h => ?_, fun h => ?_, fun h ⟨ca, hca, hs⟩ => ?_⟩
  · unfold getFulcioCerts
    rw [collectFulcioCerts_empty now _ h]
  · unfold getFulcioCerts
    rw [collectFulcioCerts_eq now _ (fun ca hca => (h ca hca).1), List.nil_append, List.flatMap_eq_nil_iff.2]
    intro ca hca
    obtain ⟨r, hr, hlt⟩ := (h ca hca).2
    unfold CertificateAuthority.certs
    rw [if_neg]
    intro hv
    have := ((C12_usable_iff now ca.validFor true).1 hv r hr).1
    omega
  · unfold getFulcioCerts
    rw [collectFulcioCerts_eq now _ h, List.nil_append]
    cases hf : tr.certificateAuthorities.flatMap fun ca => ca.certs now true with
    | cons c cs => exact ⟨_, rfl⟩
    | nil =>
      have := List.flatMap_eq_nil_iff.1 hf ca hca
      unfold CertificateAuthority.certs at this
      rw [if_pos ((C12_usable_iff now ca.validFor true).2 fun r hr => ⟨hs r hr, .inl rfl⟩)] at this
      exact absurd this (h ca hca)

/-- **C12** The Fulcio certificates used for verification are those of the authorities whose period has
started, whether or not it has ended. -/
theorem C12_fulcio_certs_iff {χ : Type} (now : Time) (tr : TrustedRoot χ) (certs : List χ)
    (h : getFulcioCerts now tr = .ok certs) (x : χ) :
    x ∈ certs ↔ ∃ ca ∈ tr.certificateAuthorities, x ∈ ca.certificates ∧
      ∀ r, ca.validFor = some r → r.start ≤ now := by
  have hne : ∀ ca ∈ tr.certificateAuthorities, ca.certificates ≠ [] := by
    intro ca hca he
    rw [(C12_fulcio_certs_error now tr).1 ⟨ca, hca, he⟩] at h
    cases h
  unfold getFulcioCerts at h
  rw [collectFulcioCerts_eq now _ hne] at h
  simp only [List.nil_append] at h
  split at h
  · simp at h
  · simp at h
  · rename_i heq
    have e1 := Except.ok.inj heq
    have e2 := Except.ok.inj h
    subst e2
    rw [← e1, List.mem_flatMap]
    have hm : ∀ ca : CertificateAuthority χ, x ∈ ca.certs now true ↔
        (x ∈ ca.certificates ∧ ∀ r, ca.validFor = some r → r.start ≤ now) := by
      intro ca
      unfold CertificateAuthority.certs
      by_cases hv : isTimerangeValid now ca.validFor true = true
      · have := (C12_usable_iff now ca.validFor true).1 hv
        simp only [hv, if_true]
        exact ⟨fun h => ⟨h, fun r hr => (this r hr).1⟩, fun h => h.1⟩
      · simp only [hv]
        simp only [Bool.false_eq_true, if_false, List.not_mem_nil, false_iff, not_and]
        intro _ hx
        exact hv ((C12_usable_iff now ca.validFor true).2 fun r hr => ⟨hx r hr, .inl rfl⟩)
    simp only [hm]

/-- boundary instants: both ends of a window are inside -/
example : isTimerangeValid 10 (some ⟨10, some 20⟩) false = true ∧ isTimerangeValid 20 (some ⟨10, some 20⟩) false = true ∧
    isTimerangeValid 21 (some ⟨10, some 20⟩) false = false ∧ isTimerangeValid 21 (some ⟨10, some 20⟩) true = true ∧
    isTimerangeValid 9 (some ⟨10, some 20⟩) true = false := by decide

/-- a trusted root with one expired log: usable for verification, not for signing -/
example : (∃ kr, rekorKeyring toyCrypto 30 (⟨[⟨some [2, 20], .pkixEcdsaP256Sha256, some ⟨10, some 20⟩⟩], [], [], []⟩ : TrustedRoot Unit) .verify = .ok kr) ∧
    rekorKeyring toyCrypto 30 (⟨[⟨some [2, 20], .pkixEcdsaP256Sha256, some ⟨10, some 20⟩⟩], [], [], []⟩ : TrustedRoot Unit) .sign = .error .metadata :=
  ⟨⟨_, rfl⟩, rfl⟩

/-- an authority without certificates, and one that has not started -/
example : getFulcioCerts 15 (⟨[], [], [⟨none, [1]⟩, ⟨none, []⟩], []⟩ : TrustedRoot Nat) = .error .error ∧
    getFulcioCerts 15 (⟨[], [], [⟨some ⟨20, none⟩, [3]⟩], []⟩ : TrustedRoot Nat) = .error .metadata := by decide

/-- two authorities, one not yet started -/
example : getFulcioCerts 15 (⟨[], [], [⟨some ⟨10, some 12⟩, [1, 2]⟩, ⟨some ⟨20, none⟩, [3]⟩], []⟩ : TrustedRoot Nat) = .ok [1, 2] := by
  decide

end Sigstore.Props
