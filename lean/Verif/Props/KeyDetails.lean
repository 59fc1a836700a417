import Verif.Model.KeyDetails

/-!
# C52: key algorithm selection
-/

namespace Sigstore.Props

open Sigstore.Trust

/-- The Sigstore algorithm registry
(https://github.com/sigstore/architecture-docs/blob/main/algorithm-registry.md), restricted to what a
certificate key can be: key, identifier, externalised hash. -/
inductive Registered : KeyKind → KeyDetails → Option (HashAlgorithm × HashAlg) → Prop where
  | rsa2048 : Registered (.rsa 2048) .pkixRsaPkcs1v15_2048Sha256 (some (.sha2_256, .sha256))
  | rsa3072 : Registered (.rsa 3072) .pkixRsaPkcs1v15_3072Sha256 (some (.sha2_256, .sha256))
  | rsa4096 : Registered (.rsa 4096) .pkixRsaPkcs1v15_4096Sha256 (some (.sha2_256, .sha256))
  | p256 : Registered (.ec .p256) .pkixEcdsaP256Sha256 (some (.sha2_256, .sha256))
  | p384 : Registered (.ec .p384) .pkixEcdsaP384Sha384 (some (.sha2_384, .sha384))
  | p521 : Registered (.ec .p521) .pkixEcdsaP521Sha512 (some (.sha2_512, .sha512))
  | ed25519 : Registered .ed25519 .pkixEd25519 none

/-- RSA keys are only registered with PKCS#1 v1.5 signatures -/
def PaddingOk (cert : Cert) : Prop := ∀ bits, cert.pubKey.kind = .rsa bits → cert.sigParamsPkcs1 = true

/-- **C52** The selected identifier is exactly the registered one for the certificate's key. -/
theorem C52_selection_iff (cert : Cert) (kd : KeyDetails) :
    getKeyDetails cert = .ok kd ↔ PaddingOk cert ∧ ∃ h, Registered cert.pubKey.kind kd h := by
  unfold getKeyDetails PaddingOk
  cases hk : cert.pubKey.kind with
  | ec c =>
    cases c <;> constructor <;> intro h
    all_goals first
      | (cases h; exact ⟨by simp, _, by constructor⟩)
      | (obtain ⟨_, h, hr⟩ := h; cases hr; try rfl)
      | simp at h
  | ed25519 =>
    constructor <;> intro h
    · cases h; exact ⟨by simp, _, by constructor⟩
    · obtain ⟨_, h, hr⟩ := h; cases hr; rfl
  | other t =>
    constructor <;> intro h
    · simp at h
    · obtain ⟨_, h, hr⟩ := h; cases hr
  | rsa bits =>
    simp only [KeyKind.rsa.injEq, forall_eq']
    cases hp : cert.sigParamsPkcs1 with
    | false => simp
    | true =>
      simp only [if_true, true_and]
      constructor
      · intro h
        split at h
        · rename_i hb; subst hb; cases h; exact ⟨_, .rsa2048⟩
        · split at h
          · rename_i hb; subst hb; cases h; exact ⟨_, .rsa3072⟩
          · split at h
            · rename_i hb; subst hb; cases h; exact ⟨_, .rsa4096⟩
            · simp at h
      · rintro ⟨h, hr⟩
        cases hr <;> rfl

/-- **C52** Unsupported keys raise `ValueError` and nothing else. -/
theorem C52_unsupported (cert : Cert) (e : Exc) (h : getKeyDetails cert = .error e) : e = .valueError := by
  unfold getKeyDetails at h
  repeat' (split at h)
  all_goals first | (simp at h; done) | (cases h; rfl)

/-- **C52** The pre-hash used for a registered key is the one of the registry; Ed25519, which has
none, raises `ValueError`. -/
theorem C52_prehash (kind : KeyKind) (kd : KeyDetails) (h : Option (HashAlgorithm × HashAlg))
    (hr : Registered kind kd h) :
    getPrehash kd = match h with | some x => .ok x | none => .error .valueError := by
  cases hr <;> decide

/-- **C52** Identifier and externalised hash are determined by the key. -/
theorem C52_registry_functional (kind : KeyKind) (kd kd' : KeyDetails) (h h' : Option (HashAlgorithm × HashAlg))
    (hr : Registered kind kd h) (hr' : Registered kind kd' h') : kd = kd' ∧ h = h' := by
  cases hr <;> cases hr' <;> exact ⟨rfl, rfl⟩

/-- a P-384 certificate is selected with SHA-384 -/
example : ∀ cert : Cert, cert.pubKey.kind = .ec .p384 →
    getKeyDetails cert = .ok .pkixEcdsaP384Sha384 ∧ getPrehash .pkixEcdsaP384Sha384 = .ok (.sha2_384, .sha384) := by
  intro cert h
  exact ⟨by unfold getKeyDetails; rw [h], by decide⟩

end Sigstore.Props
