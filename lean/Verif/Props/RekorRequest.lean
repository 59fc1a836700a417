import Verif.Spec.Rekor
import Verif.Spec.Verification
import Verif.Props.VerificationExamples

/-!
# C55: what signing submits to Rekor is what verification expects
-/

namespace Sigstore.Props

open Sigstore.Trust Sigstore.LogEntry Sigstore.Dsse Sigstore.Spec Sigstore.Rekor

theorem v1_ne_v2 : "0.0.1".toList ≠ "0.0.2".toList := by decide

theorem hashFor_registered {k : KeyKind} {kd : KeyDetails} {alg : HashAlgorithm} {r : Option (HashAlgorithm × HashAlg)}
    (h : HashFor kd alg) (hr : Registered k kd r) : ∃ hf, r = some (alg, hf) := by
  cases hr <;> cases h <;> exact ⟨_, rfl⟩

theorem registered_hashFor {k : KeyKind} {kd : KeyDetails} {alg : HashAlgorithm} {hf : HashAlg}
    (hr : Registered k kd (some (alg, hf))) : HashFor kd alg := by
  cases hr <;> constructor

/-- **C55** For an artifact and either API version: the entries that hold what an honest log records for the signer's
request are exactly those that verification accepts for this digest, signature and certificate, in the version of the
API. -/
theorem C55_artifact_entry_iff (env : Env) (v : ApiVersion) (h : Hashed) (sig : Bytes) (cert : Cert)
    (request : EntryRequest) (hreq : hashedRekordRequest v h sig cert = .ok request) (halg : h.algorithm = .sha2_256)
    (r : Recorded) (hrec : Records env.crypto request r)
    (hv2 : v = .v2 → ∃ kd hf, Registered cert.pubKey.kind kd (some (.sha2_256, hf))) (entry : LogEntry) :
    Holds env entry r ↔
      HashedrekordFor env entry cert .sha2_256 h.digest sig ∧ entry.version = versionOf v := by
  cases v with
  | v1 =>
    simp only [hashedRekordRequest, hashedRekordRequestV1, if_pos halg, Except.ok.injEq] at hreq
    subst hreq
    cases hrec
    unfold Holds HashedrekordFor versionOf
    constructor
    · rintro ⟨h1, h2, h3⟩
      exact ⟨⟨h1, .inl ⟨h2, rfl, h3⟩⟩, h2⟩
    · rintro ⟨⟨h1, h2 | h2⟩, h3⟩
      · exact ⟨h1, h2.1, h2.2.2⟩
      · exact absurd (h3.symm.trans h2.1) v1_ne_v2
  | v2 =>
    obtain ⟨kd, hf, hk⟩ := hv2 rfl
    simp only [hashedRekordRequest, hashedRekordRequestV2] at hreq
    cases hd : getKeyDetails cert with
    | error e => rw [hd] at hreq; simp at hreq
    | ok kd' =>
      rw [hd] at hreq
      simp only [Except.ok.injEq] at hreq
      subst hreq
      obtain ⟨_, hr', hk'⟩ := (C52_selection_iff _ _).1 hd
      cases hrec with
      | v2 _ _ _ _ alg hh =>
      have hkd := (C52_registry_functional _ _ _ _ _ hk' hk).1
      subst hkd
      obtain ⟨hf', h⟩ := hashFor_registered hh hk
      cases h
      unfold Holds HashedrekordFor versionOf
      constructor
      · rintro ⟨h1, h2, h3⟩
        exact ⟨⟨h1, .inr ⟨h2, kd', _, hk, h3⟩⟩, h2⟩
      · rintro ⟨⟨h1, h2 | h2⟩, h3⟩
        · exact absurd (h2.1.symm.trans h3) v1_ne_v2
        · obtain ⟨h2, kd₂, hf₂, hr₂, h4⟩ := h2
          have := (C52_registry_functional _ _ _ _ _ hr₂ hk).1
          subst this
          exact ⟨h1, h2, h4⟩

/-- **C55** For an attestation and either API version: the entries that hold what an honest log records for the
signer's request are exactly those that verification accepts for this envelope and certificate, in the version of the
API. -/
theorem C55_dsse_entry_iff (env : Env) (v : ApiVersion) (e : EnvelopeMsg) (sig : Bytes) (cert : Cert)
    (hs : e.signatures = [sig]) (request : EntryRequest) (hreq : dsseRequest env.crypto v e cert = .ok request)
    (r : Recorded) (hrec : Records env.crypto request r) (entry : LogEntry) :
    Holds env entry r ↔ DsseLogged env entry cert e sig ∧ entry.version = versionOf v := by
  cases v with
  | v1 =>
    simp only [dsseRequest, dsseRequestV1, Except.ok.injEq] at hreq
    subst hreq
    cases hrec
    unfold Holds DsseLogged versionOf
    rw [hs]
    constructor
    · rintro ⟨h1, h2, h3⟩
      exact ⟨.inl ⟨h1, h2, h3⟩, h2⟩
    · rintro ⟨h1 | h1, h3⟩
      · exact h1
      · exact absurd (h3.symm.trans h1.2.1) v1_ne_v2
  | v2 =>
    simp only [dsseRequest, dsseRequestV2] at hreq
    cases hd : getKeyDetails cert with
    | error x => rw [hd] at hreq; simp at hreq
    | ok kd =>
      rw [hd] at hreq
      dsimp only at hreq
      obtain ⟨_, hf, hk⟩ := (C52_selection_iff _ _).1 hd
      cases hp : getPrehash kd with
      | error x => rw [hp] at hreq; simp at hreq
      | ok y =>
        obtain ⟨alg, hashFunc⟩ := y
        have hk2 := (registered_prehash hk _).1 hp
        subst hk2
        rw [hp] at hreq
        dsimp only at hreq
        cases hi : envelopeInit e with
        | error x => rw [hi] at hreq; simp at hreq
        | ok sig' =>
          rw [hi] at hreq
          simp only [Except.ok.injEq] at hreq
          subst hreq
          have hsig : sig' = sig := by
            have := (((C34_envelope_iff e).1 sig').1 hi).1
            rw [hs] at this
            exact (List.cons.inj this).1.symm
          subst hsig
          cases hrec with
          | v2 _ _ _ _ alg' hh =>
          obtain ⟨hf', h⟩ := hashFor_registered hh hk
          cases h
          unfold Holds DsseLogged versionOf
          constructor
          · rintro ⟨h1, h2, h3⟩
            exact ⟨.inr ⟨h1, h2, kd, _, _, hk, h3⟩, h2⟩
          · rintro ⟨h1 | h1, h3⟩
            · exact absurd (h1.2.1.symm.trans h3) v1_ne_v2
            · obtain ⟨h1, h2, kd₂, alg₂, hf₂, hr₂, h4⟩ := h1
              obtain ⟨rfl, h5⟩ := C52_registry_functional _ _ _ _ _ hr₂ hk
              cases h5
              exact ⟨h1, h2, h4⟩

/-- **C55** The body of an accepted request is determined: an honest log has at most one body to record.  (For which requests it has
one is `C55_recordable`.) -/
theorem C55_recorded_unique (c : Crypto) (request : EntryRequest) (r r' : Recorded) (h : Records c request r)
    (h' : Records c request r') : r = r' := by
  cases h with
  | hashedrekord => cases h'; rfl
  | dsse => cases h'; rfl
  | v2 _ _ _ kd alg hh =>
    cases h' with
    | v2 _ _ _ _ alg' hh' => cases hh <;> cases hh' <;> rfl

/-- **C55** Every attestation request can be recorded; so can every artifact request unless the certificate's key has
no externalised hash, as Ed25519. -/
theorem C55_recordable (c : Crypto) (v : ApiVersion) (request : EntryRequest) (cert : Cert) :
    (∀ e, dsseRequest c v e cert = .ok request → ∃ r, Records c request r) ∧
    (∀ h sig, hashedRekordRequest v h sig cert = .ok request →
      (v = .v2 → ∃ kd x, Registered cert.pubKey.kind kd (some x)) → ∃ r, Records c request r) := by
  cases v with
  | v1 =>
    constructor
    · intro e h
      simp only [dsseRequest, dsseRequestV1, Except.ok.injEq] at h
      subst h
      exact ⟨_, .dsse _ _⟩
    · intro h sig hq _
      simp only [hashedRekordRequest, hashedRekordRequestV1] at hq
      split at hq
      · cases hq; exact ⟨_, .hashedrekord _⟩
      · simp at hq
  | v2 =>
    constructor
    · intro e hreq
      simp only [dsseRequest, dsseRequestV2] at hreq
      cases hd : getKeyDetails cert with
      | error x => rw [hd] at hreq; simp at hreq
      | ok kd =>
        rw [hd] at hreq
        dsimp only at hreq
        obtain ⟨_, hf, hk⟩ := (C52_selection_iff _ _).1 hd
        cases hp : getPrehash kd with
        | error x => rw [hp] at hreq; simp at hreq
        | ok y =>
          have hk2 := (registered_prehash hk _).1 hp
          subst hk2
          rw [hp] at hreq
          dsimp only at hreq
          cases hi : envelopeInit e with
          | error x => rw [hi] at hreq; simp at hreq
          | ok sig' =>
            rw [hi] at hreq
            simp only [Except.ok.injEq] at hreq
            subst hreq
            exact ⟨_, .v2 _ _ _ _ _ (registered_hashFor hk)⟩
    · intro h sig hq hv
      obtain ⟨kd, x, hk⟩ := hv rfl
      simp only [hashedRekordRequest, hashedRekordRequestV2] at hq
      cases hd : getKeyDetails cert with
      | error e => rw [hd] at hq; simp at hq
      | ok kd' =>
        rw [hd] at hq
        simp only [Except.ok.injEq] at hq
        subst hq
        obtain ⟨_, hf, hk'⟩ := (C52_selection_iff _ _).1 hd
        obtain ⟨rfl, rfl⟩ := C52_registry_functional _ _ _ _ _ hk' hk
        exact ⟨_, .v2 _ _ _ _ _ (registered_hashFor hk')⟩

/-- the example's v1 entry holds what is recorded for the example's request -/
example : ∃ request r, hashedRekordRequest .v1 ⟨.sha2_256, exArtifact⟩ exSignature exSigner = .ok request ∧
    Records exVEnv.crypto request r ∧ Holds exVEnv (exLogged "hashedrekord".toList "0.0.1".toList) r := by
  refine ⟨_, _, rfl, .hashedrekord _, rfl, rfl, ?_⟩
  show (if exBody = exBody then _ else (none : Option HashedrekordBody)) = _
  rw [if_pos rfl]
  rfl

/-- a v2 request of an attestation signed with a P-384 key records a SHA-384 digest -/
example : ∃ request r, dsseRequest toyCrypto .v2 ⟨exArtifact, "t".toList, [[1]]⟩
      { exSigner with pubKey := ⟨.ec .p384, [2]⟩ } = .ok request ∧ Records toyCrypto request r ∧
    ∃ d v k, r = .v2 ⟨"hashedrekord".toList, "0.0.2".toList, some ⟨.sha2_384, d, [1], v, k⟩⟩ := by
  refine ⟨_, _, rfl, .v2 _ _ _ _ .sha2_384 .p384, _, _, _, rfl⟩

end Sigstore.Props
