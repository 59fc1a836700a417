import Verif.Lemmas.Raises

/-!
# C104: exactly which exceptions verification raises

An upper bound for all inputs, and an input for each exception on the list.  The bundles of the witnesses were accepted by
`Bundle.__init__` and the verifiers by `Verifier.__init__`, so a caller can meet every one of them.
-/

namespace Sigstore.Props

open Sigstore.Trust Sigstore.LogEntry Sigstore.Dsse Sigstore.Sct Sigstore.Spec Sigstore.Merkle Sigstore.Checkpoint

/-! ## The bound -/

theorem verifyCommon_raises (env : Env) (now : Time) (v : Verifier) (b : Bundle) (policy : Cert → Py Unit) (e : Exc)
    (h : verifyCommon env now v b policy = .error e) : policy b.cert = .error e ∨ e ∈ verifyRaises := by
  by_cases hp : policy b.cert = .error e
  · exact .inl hp
  · exact .inr (Raises.common_subset (Raises.verifyCommon env now v b policy (fun h => absurd h hp) h))

/-- **C104** Whatever the bundle, the input, the trusted root and the time: an exception of `verify_artifact` is on the list
or the policy's. -/
theorem C104_artifact_bound (env : Env) (now : Time) (v : Verifier) (input : HashInput) (b : Bundle)
    (policy : Cert → Py Unit) (e : Exc) (h : verifyArtifact env now v input b policy = .error e) :
    policy b.cert = .error e ∨ e ∈ verifyRaises := by
  unfold verifyArtifact at h
  split at h
  · next x hx =>
    rw [Except.error.injEq] at h; subst h
    exact verifyCommon_raises env now v b policy _ hx
  · exact .inr (Raises.checkArtifact env b input h)

/-- **C104** The same for `verify_dsse`. -/
theorem C104_dsse_bound (env : Env) (now : Time) (v : Verifier) (b : Bundle)
    (policy : Cert → Py Unit) (e : Exc) (h : verifyDsse env now v b policy = .error e) :
    policy b.cert = .error e ∨ e ∈ verifyRaises := by
  unfold verifyDsse at h
  split at h
  · next x hx =>
    rw [Except.error.injEq] at h; subst h
    exact verifyCommon_raises env now v b policy _ hx
  · exact .inr (Raises.checkDsse env b h)

/-! ## Policies -/

/-- a policy made of the classes of `sigstore.verify.policy` only -/
inductive Supplied : Policy.Policy → Prop
  | ext (cls : Policy.ExtClass) (value : Str) : Supplied (.ext cls value)
  | identity (i : Str) (iss : Option Str) : Supplied (.identity i iss)
  | unsafeNoOp : Supplied .unsafeNoOp
  | anyOf (ps : List Policy.Policy) (h : ∀ p ∈ ps, Supplied p) : Supplied (.anyOf ps)
  | allOf (ps : List Policy.Policy) (h : ∀ p ∈ ps, Supplied p) : Supplied (.allOf ps)

theorem supplied_raises (cert : Cert) (p : Policy.Policy) (hs : Supplied p) (e : Exc)
    (h : p.verify cert = .error e) : e ∈ policyRaises := by
  induction hs generalizing e with
  | ext cls value => rw [Policy.Policy.verify] at h; exact Raises.verifyExt _ _ _ h
  | identity i iss => rw [Policy.Policy.verify] at h; exact Raises.verifyIdentity _ _ _ h
  | unsafeNoOp => rw [Policy.Policy.verify] at h; simp at h
  | anyOf ps hps ih =>
    rw [Policy.Policy.verify] at h
    induction ps with
    | nil => rw [Policy.verifyAny, Except.error.injEq] at h; subst h; decide
    | cons q qs ihq =>
      rw [Policy.verifyAny] at h
      split at h
      · simp at h
      · next x hx =>
        split at h
        · exact ihq (fun p hp => hps p (by simp [hp])) (fun p hp => ih p (by simp [hp])) h
        · rw [Except.error.injEq] at h; subst h; exact ih q (by simp) _ hx
  | allOf ps hps ih =>
    rw [Policy.Policy.verify] at h
    split at h
    · rw [Except.error.injEq] at h; subst h; decide
    · next hl =>
      clear hl
      induction ps with
      | nil => rw [Policy.verifyAll] at h; simp at h
      | cons q qs ihq =>
        rw [Policy.verifyAll] at h
        split at h
        · exact ihq (fun p hp => hps p (by simp [hp])) (fun p hp => ih p (by simp [hp])) h
        · next x hx => rw [Except.error.injEq] at h; subst h; exact ih q (by simp) _ hx

/-- **C104** The exceptions of the policies in `sigstore.verify.policy` and of their combinations, exactly. -/
theorem C104_policy_iff (e : Exc) : (∃ p cert, Supplied p ∧ p.verify cert = .error e) ↔ e ∈ policyRaises := by
  constructor
  · rintro ⟨p, cert, hs, h⟩; exact supplied_raises cert p hs e h
  · intro h
    simp only [policyRaises, List.mem_cons, List.not_mem_nil, or_false] at h
    rcases h with rfl | rfl | rfl | rfl
    · exact ⟨.anyOf [], exSigner, .anyOf _ (by simp), by decide⟩
    · exact ⟨.ext .oidcBuildConfigUri [], { exSigner with exts := [((Policy.ExtClass.oidcBuildConfigUri).oid, [])] },
        .ext _ _, by decide⟩
    · exact ⟨.ext .oidcIssuer [], { exSigner with exts := [(Policy.fulcioArc 1, [255])] }, .ext _ _, by decide⟩
    · exact ⟨.identity [] none, { exSigner with san := none }, .identity _ _, by decide⟩

/-! ## Every exception on the list -/

/-- a bundle that `Bundle.__init__` accepted and a verifier that `Verifier.__init__` made -/
def Reachable (env : Env) (now : Time) (v : Verifier) (b : Bundle) : Prop :=
  (∃ root, Verifier.init now root = .ok v) ∧ ∃ m, Bundle.init env m = .ok b

/-- the example with another certificate and chain -/
def raiseEnv (cert : Cert) (chain : List Cert) : Env :=
  { exVEnv with loadCert := fun _ => some cert, buildChain := fun _ _ _ => some chain }

/-- the example with another certificate and entry -/
def raiseBundle (cert : Cert) (e : LogEntry) : Bundle := ⟨{ exBundle.inner with tlogEntries := [e] }, cert, e⟩

/-- the example's entry -/
def raiseEntry : LogEntry := exLogged "hashedrekord".toList "0.0.1".toList

theorem raise_verifier (root : TrustedRoot Cert) (h1 : root.certificateAuthorities = exRoot.certificateAuthorities)
    (h2 : root.tlogs = exRoot.tlogs) : Verifier.init 3000000000 root = .ok ⟨root, [exIssuer]⟩ := by
  have h : getFulcioCerts 3000000000 root = .ok [exIssuer] := by
    unfold getFulcioCerts; rw [h1]; decide
  unfold Verifier.init
  rw [h, h2]; rfl

example : Reachable exVEnv 3000000000 exVerifier exBundle :=
  ⟨⟨exRoot, raise_verifier exRoot rfl rfl⟩, ⟨exBundle.inner, by decide⟩⟩

/-- the exception is met by a caller of `verify_artifact` -/
def MetArtifact (e : Exc) : Prop :=
  ∃ env now v input b, Reachable env now v b ∧ verifyArtifact env now v input b (fun _ => .ok ()) = .error e

/-- the exception is met by a caller of `verify_dsse` -/
def MetDsse (e : Exc) : Prop :=
  ∃ env now v b, Reachable env now v b ∧ verifyDsse env now v b (fun _ => .ok ()) = .error e

theorem met_common (env : Env) (root : TrustedRoot Cert) (b : Bundle) (e : Exc)
    (h1 : root.certificateAuthorities = exRoot.certificateAuthorities) (h2 : root.tlogs = exRoot.tlogs)
    (hb : Bundle.init env b.inner = .ok b)
    (h : verifyCommon env 3000000000 ⟨root, [exIssuer]⟩ b (fun _ => .ok ()) = .error e) : MetArtifact e ∧ MetDsse e := by
  refine ⟨⟨env, _, _, .bytes [], b, ⟨⟨root, raise_verifier root h1 h2⟩, _, hb⟩, ?_⟩,
    ⟨env, _, _, b, ⟨⟨root, raise_verifier root h1 h2⟩, _, hb⟩, ?_⟩⟩
  · unfold verifyArtifact; rw [h]
  · unfold verifyDsse; rw [h]

/-- the checkpoint of the example, with a signature that is no base64 -/
def raiseCheckpoint : Str := exCk1.noteText ++ "\n— o A\n".toList

/-- the example's certificate, with other extensions of its SCT -/
def raiseLong (ext : Bytes) : Cert :=
  { exSigner with scts := some [{ exSct .preCertificate exPayload with extensionBytes := ext }] }

theorem packSignedEntry_congr (s s' : Sct) (c c' : Cert) (i : Option Bytes) (h1 : s.entryType = s'.entryType)
    (h2 : c.tbsPrecert = c'.tbsPrecert) (h3 : c.der = c'.der) : packSignedEntry s c i = packSignedEntry s' c' i := by
  unfold packSignedEntry; rw [h1, h2, h3]

theorem raiseLong_sct (ext : Bytes) (h : 2 ^ 16 ≤ ext.length) :
    verifySct toyCrypto (raiseLong ext) [exIssuer] toyKeyring = .error .structError := by
  unfold verifySct
  rw [show getSct (raiseLong ext) = .ok { exSct .preCertificate exPayload with extensionBytes := ext } from rfl]
  dsimp only
  rw [show issuerKeyIdFor toyCrypto { exSct .preCertificate exPayload with extensionBytes := ext } [exIssuer] =
    .ok (some (pubKeyId toyCrypto exIssuer.pubKey)) from rfl]
  dsimp only
  have h4 : packDigitallySigned { exSct .preCertificate exPayload with extensionBytes := ext } (raiseLong ext)
      (some (pubKeyId toyCrypto exIssuer.pubKey)) = .error .structError := by
    unfold packDigitallySigned
    obtain ⟨signed, hs⟩ : ∃ signed, packSignedEntry { exSct .preCertificate exPayload with extensionBytes := ext }
      (raiseLong ext) (some (pubKeyId toyCrypto exIssuer.pubKey)) = .ok signed := by
      refine ⟨List.replicate 32 7 ++ [0, 0, 3, 1, 2, 3],
        (packSignedEntry_congr _ (exSct .preCertificate exPayload) (raiseLong ext) exSctCert _ ?_ rfl rfl).trans ?_⟩
      · rfl
      · decide
    rw [hs]
    dsimp only
    rw [if_neg (by decide), if_pos h]
  rw [h4]

theorem raise_long (ext : Bytes) (h : 2 ^ 16 ≤ ext.length) : MetArtifact .structError ∧ MetDsse .structError := by
  refine met_common (raiseEnv (raiseLong ext) [exIssuer]) exRoot (raiseBundle (raiseLong ext) raiseEntry) _ rfl rfl rfl ?_
  have h1 : establishTime (raiseEnv (raiseLong ext) [exIssuer]) 3000000000 ⟨exRoot, [exIssuer]⟩
      (raiseBundle (raiseLong ext) raiseEntry) =
      .ok [⟨.timestampAuthority, 1000000007⟩, ⟨.transparencyService, 1500000000⟩] := rfl
  have h2 : ctKeyring toyCrypto 3000000000 exRoot .verify = .ok toyKeyring := by decide
  have h3 := raiseLong_sct ext h
  have h5 : checkSct (raiseEnv (raiseLong ext) [exIssuer]) 3000000000 ⟨exRoot, [exIssuer]⟩ (raiseLong ext) [exIssuer] =
      .error .structError := by
    unfold checkSct
    rw [show ctKeyring (raiseEnv (raiseLong ext) [exIssuer]).crypto 3000000000 exRoot .verify = .ok toyKeyring from h2]
    dsimp only
    rw [show verifySct (raiseEnv (raiseLong ext) [exIssuer]).crypto (raiseLong ext) [exIssuer] toyKeyring =
      .error .structError from h3]
    rfl
  unfold verifyCommon
  rw [h1]
  dsimp only
  rw [if_neg (by decide)]
  rw [show verifyChains (raiseEnv (raiseLong ext) [exIssuer]) [exIssuer] (raiseBundle (raiseLong ext) raiseEntry).cert []
    [⟨.timestampAuthority, 1000000007⟩, ⟨.transparencyService, 1500000000⟩] = .ok [exIssuer] from rfl]
  dsimp only
  rw [show (raiseBundle (raiseLong ext) raiseEntry).cert = raiseLong ext from rfl, h5]

theorem raise_struct : MetArtifact .structError ∧ MetDsse .structError :=
  raise_long (List.replicate (2 ^ 16) 0) (by rw [List.length_replicate])

theorem raise_common (e : Exc) (h : e ∈ commonRaises) : MetArtifact e ∧ MetDsse e := by
  simp only [commonRaises, List.mem_cons, List.not_mem_nil, or_false] at h
  rcases h with rfl | rfl | rfl | rfl | rfl | rfl | rfl | rfl | rfl | rfl | rfl | rfl | rfl | rfl
  -- `VerificationError`: no digital signatures
  · exact met_common (raiseEnv { exSigner with keyUsage := some ⟨false, false⟩ } [exIssuer]) exRoot
      (raiseBundle { exSigner with keyUsage := some ⟨false, false⟩ } raiseEntry) _ rfl rfl (by decide +kernel) (by decide +kernel)
  -- `CertValidationError`: no chain
  · exact met_common { exVEnv with buildChain := fun _ _ _ => none } exRoot exBundle _ rfl rfl (by decide +kernel)
      (by decide +kernel)
  -- `ValueError`: the log's time is after year 9999
  · exact met_common exVEnv exRoot (raiseBundle exSigner { raiseEntry with integratedTime := some 253402300800 }) _ rfl rfl
      (by decide +kernel) (by decide +kernel)
  -- `binascii.Error`: a signature of the checkpoint is no base64
  · exact met_common exVEnv exRoot (raiseBundle exSigner { raiseEntry with
      proof := some { logIndex := 0, rootHash := [0, 20], treeSize := 1, hashes := [], checkpoint := some raiseCheckpoint } })
      _ rfl rfl (by decide +kernel) (by decide +kernel)
  -- `CanonicalizationError`: the index of the entry is no integer of JSON
  · exact met_common exVEnv exRoot (raiseBundle exSigner { raiseEntry with logIndex := 2 ^ 53 }) _ rfl rfl
      (by decide +kernel) (by decide +kernel)
  -- `OSError` and `OverflowError`: the log's time is later still
  · exact met_common exVEnv exRoot (raiseBundle exSigner { raiseEntry with integratedTime := some (2 ^ 60) }) _ rfl rfl
      (by decide +kernel) (by decide +kernel)
  · exact met_common exVEnv exRoot (raiseBundle exSigner { raiseEntry with integratedTime := some (2 ^ 70) }) _ rfl rfl
      (by decide +kernel) (by decide +kernel)
  -- `Error`: an authority without certificates
  · exact met_common exVEnv { exRoot with timestampAuthorities := [⟨some ⟨0, none⟩, []⟩] } exBundle _ rfl rfl
      (by decide +kernel) (by decide +kernel)
  -- `AttributeError`: an authority without a period
  · exact met_common exVEnv { exRoot with timestampAuthorities := [⟨none, [exLeafCert, exCaCert]⟩] } exBundle _ rfl rfl
      (by decide +kernel) (by decide +kernel)
  -- `InvalidEnvelope`: several signatures
  · exact met_common exVEnv exRoot { exDsseBundle with
      inner := { exDsseBundle.inner with dsseEnvelope := some ⟨exArtifact, "t".toList, [[1], [2]]⟩ } } _ rfl rfl
      (by decide +kernel) (by decide +kernel)
  -- `MetadataError`: no CT logs
  · exact met_common exVEnv { exRoot with ctlogs := [] } exBundle _ rfl rfl (by decide +kernel) (by decide +kernel)
  -- `struct.error`
  · exact raise_struct
  -- `IndexError`: an empty chain
  · exact met_common { exVEnv with buildChain := fun _ _ _ => some [] } exRoot exBundle _ rfl rfl (by decide +kernel)
      (by decide +kernel)
  -- `ExtensionNotFound`: no KeyUsage
  · exact met_common (raiseEnv { exSigner with keyUsage := none } [exIssuer]) exRoot
      (raiseBundle { exSigner with keyUsage := none } raiseEntry) _ rfl rfl (by decide +kernel) (by decide +kernel)

/-- a certificate with an RSA key -/
def raiseRsa : Cert := { exSigner with pubKey := ⟨.rsa 2048, [2, 30]⟩ }

/-- an attestation recorded in a log of version 2 -/
def raiseV2 : LogEntry :=
  { exLogged "hashedrekord".toList "0.0.2".toList with integratedTime := none, promise := none }

/-- **C104** `verify_artifact` with a policy that accepts raises exactly the exceptions on the list. -/
theorem C104_artifact_iff (e : Exc) : MetArtifact e ↔ e ∈ verifyRaises := by
  constructor
  · rintro ⟨env, now, v, input, b, _, h⟩
    rcases C104_artifact_bound env now v input b _ e h with h | h
    · simp at h
    · exact h
  · intro h
    rw [verifyRaises, List.mem_append] at h
    rcases h with h | h
    · exact (raise_common e h).1
    · simp only [List.mem_cons, List.not_mem_nil, or_false] at h
      rcases h with rfl | rfl
      · exact ⟨raiseEnv raiseRsa [exIssuer], 3000000000, exVerifier, .bytes exArtifact, raiseBundle raiseRsa raiseEntry,
          ⟨⟨exRoot, raise_verifier exRoot rfl rfl⟩, ⟨(raiseBundle raiseRsa raiseEntry).inner, by decide +kernel⟩⟩,
          by decide +kernel⟩
      · exact ⟨{ exVEnv with parseHashedrekord := fun _ => none }, 3000000000, exVerifier, .bytes exArtifact, exBundle,
          ⟨⟨exRoot, raise_verifier exRoot rfl rfl⟩, ⟨exBundle.inner, by decide +kernel⟩⟩, by decide +kernel⟩

/-- **C104** `verify_dsse` raises exactly the same. -/
theorem C104_dsse_iff (e : Exc) : MetDsse e ↔ e ∈ verifyRaises := by
  constructor
  · rintro ⟨env, now, v, b, _, h⟩
    rcases C104_dsse_bound env now v b _ e h with h | h
    · simp at h
    · exact h
  · intro h
    rw [verifyRaises, List.mem_append] at h
    rcases h with h | h
    · exact (raise_common e h).2
    · simp only [List.mem_cons, List.not_mem_nil, or_false] at h
      rcases h with rfl | rfl
      · exact ⟨raiseEnv raiseRsa [exIssuer], 3000000000, exVerifier, ⟨exDsseBundle.inner, raiseRsa, exDsseBundle.entry⟩,
          ⟨⟨exRoot, raise_verifier exRoot rfl rfl⟩, ⟨exDsseBundle.inner, by decide +kernel⟩⟩, by decide +kernel⟩
      · exact ⟨exVEnv, 3000000000, exVerifier, ⟨{ exDsseBundle.inner with tlogEntries := [raiseV2] }, exSigner, raiseV2⟩,
          ⟨⟨exRoot, raise_verifier exRoot rfl rfl⟩, ⟨{ exDsseBundle.inner with tlogEntries := [raiseV2] }, by decide +kernel⟩⟩,
          by decide +kernel⟩

/-- **C104** A signature made with an RSA or Ed25519 key that comes to be checked ends in a `TypeError`, whatever it is, and with another
kind of key than these and elliptic curves in an `AttributeError`. -/
theorem C104_key_kind (env : Env) (now : Time) (v : Verifier) (content : Bytes) (b : Bundle) (policy : Cert → Py Unit)
    (ms : MessageSignature) (hc : verifyCommon env now v b policy = .ok ()) (hm : b.inner.messageSignature = some ms)
    (hd : ms.digest = none ∨ ms.digest = some (env.crypto.sha256 content)) :
    ((b.cert.pubKey.kind = .ed25519 ∨ ∃ n, b.cert.pubKey.kind = .rsa n) →
      verifyArtifact env now v (.bytes content) b policy = .error .typeError) ∧
    ((∃ n, b.cert.pubKey.kind = .other n) → verifyArtifact env now v (.bytes content) b policy = .error .attributeError) := by
  have hn : ¬ (ms.digest.isSome ∧ some (sha256Digest env.crypto (.bytes content)).digest ≠ ms.digest) := by
    rcases hd with hd | hd <;> rw [hd] <;> simp [sha256Digest]
  unfold verifyArtifact checkArtifact
  rw [hc, hm]; dsimp only
  rw [if_neg hn]
  unfold verifyPrehashed
  refine ⟨?_, ?_⟩
  · rintro (hk | ⟨n, hk⟩) <;> rw [hk] <;> simp [sha256Digest]
  · rintro ⟨n, hk⟩; rw [hk]

/-- a certificate with an Ed25519 key -/
def raiseEd : Cert := { exSigner with pubKey := ⟨.ed25519, [2, 30]⟩ }

example : verifyCommon (raiseEnv raiseEd [exIssuer]) 3000000000 exVerifier (raiseBundle raiseEd raiseEntry) (fun _ => .ok ()) =
      .ok () ∧
    verifyArtifact (raiseEnv raiseEd [exIssuer]) 3000000000 exVerifier (.bytes exArtifact) (raiseBundle raiseEd raiseEntry)
      (fun _ => .ok ()) = .error .typeError := by
  refine ⟨by decide +kernel, by decide +kernel⟩

/-- **C104** The same for an attestation with one signature that is not empty. -/
theorem C104_key_kind_dsse (env : Env) (now : Time) (v : Verifier) (b : Bundle) (policy : Cert → Py Unit) (payload : Bytes)
    (type : Str) (x : UInt8) (sig : Bytes) (hc : verifyCommon env now v b policy = .ok ())
    (hm : b.inner.dsseEnvelope = some ⟨payload, type, [x :: sig]⟩) :
    ((b.cert.pubKey.kind = .ed25519 ∨ ∃ n, b.cert.pubKey.kind = .rsa n) → verifyDsse env now v b policy = .error .typeError) ∧
    ((∃ n, b.cert.pubKey.kind = .other n) → verifyDsse env now v b policy = .error .attributeError) := by
  unfold verifyDsse checkDsse
  rw [hc, hm]; dsimp only [envelopeInit]
  unfold dsseVerify ecVerify
  refine ⟨?_, ?_⟩
  · rintro (hk | ⟨n, hk⟩) <;> rw [hk] <;> rfl
  · rintro ⟨n, hk⟩; rw [hk]; rfl

example : verifyDsse (raiseEnv raiseEd [exIssuer]) 3000000000 exVerifier ⟨exDsseBundle.inner, raiseEd, exDsseBundle.entry⟩
      (fun _ => .ok ()) = .error .typeError := by
  decide +kernel

end Sigstore.Props
